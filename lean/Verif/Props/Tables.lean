import Verif.Model.SpaTables
import Verif.Model.Spectrl2
import Verif.Model.PerezTables
import Verif.Model.DirintTable
import Verif.Model.IoTables
import Verif.Model.IoServices
import Verif.Model.IoRequests
import Verif.Model.PvSystem
import Verif.Model.PvArray
import Verif.Model.Midc

/-! # C210: the tables built into pvlib

Generated by scripts/tables.py, which reads the tables again from the Python source and scales numbers to integers.  The tables of the
model were written separately; a wrong digit in either makes a theorem of this file fail. -/

noncomputable section
namespace Pvlib.Props.Tables
open Pvlib

/-! ### The series of the solar position algorithm -/


/-- The terms `L0` of the position of the earth: amplitude, phase and frequency, in units of 1/1 , 1/10000000 , 1/100000. -/
theorem spa_L0 : Spa.tabL0 = ([(175347046, 0, 0), (3341656, 46692568, 628307585), (34894, 46261000, 1256615170), (3497, 27441000, 575338490),
      (3418, 28289000, 352310), (3136, 36277000, 7771377150), (2676, 44181000, 786041940), (2343, 61352000, 393020970),
      (1324, 7425000, 1150676980), (1273, 20371000, 52969100), (1199, 11096000, 157734350), (990, 52330000, 588492700),
      (902, 20450000, 2629800), (857, 35080000, 39814900), (780, 11790000, 522369400), (753, 25330000, 550755300),
      (505, 45830000, 1884922800), (492, 42050000, 77552300), (357, 29200000, 6700), (317, 58490000, 1179062900), (284, 18990000, 79629800),
      (271, 3150000, 1097707900), (243, 3450000, 548677800), (206, 48060000, 254431400), (205, 18690000, 557314300),
      (202, 24580000, 606977700), (156, 8330000, 21329900), (132, 34110000, 294246300), (126, 10830000, 2077500), (115, 6450000, 98000),
      (103, 6360000, 469400300), (102, 9760000, 1572083900), (102, 42670000, 711400), (99, 62100000, 214617000), (98, 6800000, 15542000),
      (86, 59800000, 16100069000), (85, 13000000, 627596000), (85, 36700000, 7143070000), (80, 18100000, 1726015000),
      (79, 30400000, 1203646000), (75, 17600000, 508863000), (74, 35000000, 315469000), (74, 46800000, 80182000), (70, 8300000, 943776000),
      (62, 39800000, 882739000), (61, 18200000, 708490000), (57, 27800000, 628660000), (56, 43900000, 1414350000),
      (56, 34700000, 627955000), (52, 1900000, 1213955000), (52, 13300000, 174802000), (51, 2800000, 585648000), (49, 4900000, 119445000),
      (41, 53700000, 842924000), (41, 24000000, 1965105000), (39, 61700000, 1044739000), (37, 60400000, 1021329000),
      (37, 25700000, 105938000), (36, 17100000, 235287000), (36, 17800000, 681277000), (33, 5900000, 1778985000), (30, 4400000, 8399685000),
      (30, 27400000, 134987000), (25, 31600000, 469048000)] : List (ℤ × ℤ × ℤ)).map
    fun r => ((r.1 : ℚ) / 1, (r.2.1 : ℚ) / 10000000, (r.2.2 : ℚ) / 100000) := by decide +kernel


/-- The terms `L1` of the position of the earth: amplitude, phase and frequency, in units of 1/1 , 1/1000000 , 1/100000. -/
theorem spa_L1 : Spa.tabL1 = ([(628331966747, 0, 0), (206059, 2678235, 628307585), (4303, 2635100, 1256615170), (425, 1590000, 352300), (119, 5796000, 2629800),
      (109, 2966000, 157734400), (93, 2590000, 1884923000), (72, 1140000, 52969000), (68, 1870000, 39815000), (67, 4410000, 550755000),
      (59, 2890000, 522369000), (56, 2170000, 15542000), (45, 400000, 79630000), (36, 470000, 77552000), (29, 2650000, 711000),
      (21, 5340000, 98000), (19, 1850000, 548678000), (19, 4970000, 21330000), (17, 2990000, 627596000), (16, 30000, 254431000),
      (16, 1430000, 214617000), (15, 1210000, 1097708000), (12, 2830000, 174802000), (12, 3260000, 508863000), (12, 5270000, 119445000),
      (12, 2080000, 469400000), (11, 770000, 55357000), (10, 1300000, 628660000), (10, 4240000, 134987000), (9, 2700000, 24273000),
      (9, 5640000, 95172000), (8, 5300000, 235287000), (6, 2650000, 943776000), (6, 4670000, 469048000)] : List (ℤ × ℤ × ℤ)).map
    fun r => ((r.1 : ℚ) / 1, (r.2.1 : ℚ) / 1000000, (r.2.2 : ℚ) / 100000) := by decide +kernel


/-- The terms `L2` of the position of the earth: amplitude, phase and frequency, in units of 1/1 , 1/10000 , 1/10000. -/
theorem spa_L2 : Spa.tabL2 = ([(52919, 0, 0), (8720, 10721, 62830758), (309, 8670, 125661520), (27, 500, 35200), (16, 51900, 263000), (16, 36800, 1554200),
      (10, 7600, 188492300), (9, 20600, 777137700), (7, 8300, 7755200), (5, 46600, 15773400), (4, 10300, 71100), (4, 34400, 55731400),
      (3, 51400, 7963000), (3, 60500, 55075500), (3, 11900, 2427300), (3, 61200, 5296900), (3, 3100, 3981500), (3, 22800, 5535700),
      (2, 43800, 52236900), (2, 37500, 9800)] : List (ℤ × ℤ × ℤ)).map
    fun r => ((r.1 : ℚ) / 1, (r.2.1 : ℚ) / 10000, (r.2.2 : ℚ) / 10000) := by decide +kernel


/-- The terms `L3` of the position of the earth: amplitude, phase and frequency, in units of 1/1 , 1/1000 , 1/1000. -/
theorem spa_L3 : Spa.tabL3 = ([(289, 5844, 6283076), (35, 0, 0), (17, 5490, 12566150), (3, 5200, 155420), (1, 4720, 3520), (1, 5300, 18849230), (1, 5970, 242730)] : List (ℤ × ℤ × ℤ)).map
    fun r => ((r.1 : ℚ) / 1, (r.2.1 : ℚ) / 1000, (r.2.2 : ℚ) / 1000) := by decide +kernel


/-- The terms `L4` of the position of the earth: amplitude, phase and frequency, in units of 1/1 , 1/1000 , 1/100. -/
theorem spa_L4 : Spa.tabL4 = ([(114, 3142, 0), (8, 4130, 628308), (1, 3840, 1256615)] : List (ℤ × ℤ × ℤ)).map
    fun r => ((r.1 : ℚ) / 1, (r.2.1 : ℚ) / 1000, (r.2.2 : ℚ) / 100) := by decide +kernel


/-- The terms `L5` of the position of the earth: amplitude, phase and frequency, in units of 1/1 , 1/100 , 1/1. -/
theorem spa_L5 : Spa.tabL5 = ([(1, 314, 0)] : List (ℤ × ℤ × ℤ)).map
    fun r => ((r.1 : ℚ) / 1, (r.2.1 : ℚ) / 100, (r.2.2 : ℚ) / 1) := by decide +kernel


/-- The terms `B0` of the position of the earth: amplitude, phase and frequency, in units of 1/1 , 1/1000 , 1/1000. -/
theorem spa_B0 : Spa.tabB0 = ([(280, 3199, 84334662), (102, 5422, 5507553), (80, 3880, 5223690), (44, 3700, 2352870), (32, 4000, 1577340)] : List (ℤ × ℤ × ℤ)).map
    fun r => ((r.1 : ℚ) / 1, (r.2.1 : ℚ) / 1000, (r.2.2 : ℚ) / 1000) := by decide +kernel


/-- The terms `B1` of the position of the earth: amplitude, phase and frequency, in units of 1/1 , 1/100 , 1/100. -/
theorem spa_B1 : Spa.tabB1 = ([(9, 390, 550755), (6, 173, 522369)] : List (ℤ × ℤ × ℤ)).map
    fun r => ((r.1 : ℚ) / 1, (r.2.1 : ℚ) / 100, (r.2.2 : ℚ) / 100) := by decide +kernel


/-- The terms `R0` of the position of the earth: amplitude, phase and frequency, in units of 1/1 , 1/10000000 , 1/100000. -/
theorem spa_R0 : Spa.tabR0 = ([(100013989, 0, 0), (1670700, 30984635, 628307585), (13956, 30552500, 1256615170), (3084, 51985000, 7771377150),
      (1628, 11739000, 575338490), (1576, 28469000, 786041940), (925, 54530000, 1150677000), (542, 45640000, 393021000),
      (472, 36610000, 588492700), (346, 9640000, 550755300), (329, 59000000, 522369400), (307, 2990000, 557314300),
      (243, 42730000, 1179062900), (212, 58470000, 157734400), (186, 50220000, 1097707900), (175, 30120000, 1884922800),
      (110, 50550000, 548677800), (98, 8900000, 606978000), (86, 56900000, 1572084000), (86, 12700000, 16100069000),
      (65, 2700000, 1726015000), (63, 9200000, 52969000), (57, 20100000, 8399685000), (56, 52400000, 7143070000), (49, 32500000, 254431000),
      (47, 25800000, 77552000), (45, 55400000, 943776000), (43, 60100000, 627596000), (39, 53600000, 469400000), (38, 23900000, 882739000),
      (37, 8300000, 1965105000), (37, 49000000, 1213955000), (36, 16700000, 1203646000), (35, 18400000, 294246000),
      (33, 2400000, 708490000), (32, 1800000, 508863000), (32, 17800000, 39815000), (28, 12100000, 628660000), (28, 19000000, 627955000),
      (26, 45900000, 1044739000)] : List (ℤ × ℤ × ℤ)).map
    fun r => ((r.1 : ℚ) / 1, (r.2.1 : ℚ) / 10000000, (r.2.2 : ℚ) / 100000) := by decide +kernel


/-- The terms `R1` of the position of the earth: amplitude, phase and frequency, in units of 1/1 , 1/100000 , 1/100000. -/
theorem spa_R1 : Spa.tabR1 = ([(103019, 110749, 628307585), (1721, 106440, 1256615170), (702, 314200, 0), (32, 102000, 1884923000), (31, 284000, 550755000),
      (25, 132000, 522369000), (18, 142000, 157734000), (10, 591000, 1097708000), (9, 142000, 627596000), (9, 27000, 548678000)] : List (ℤ × ℤ × ℤ)).map
    fun r => ((r.1 : ℚ) / 1, (r.2.1 : ℚ) / 100000, (r.2.2 : ℚ) / 100000) := by decide +kernel


/-- The terms `R2` of the position of the earth: amplitude, phase and frequency, in units of 1/1 , 1/10000 , 1/10000. -/
theorem spa_R2 : Spa.tabR2 = ([(4359, 57846, 62830758), (124, 55790, 125661520), (12, 31400, 0), (9, 36300, 777137700), (6, 18700, 55731400), (3, 54700, 188492300)] : List (ℤ × ℤ × ℤ)).map
    fun r => ((r.1 : ℚ) / 1, (r.2.1 : ℚ) / 10000, (r.2.2 : ℚ) / 10000) := by decide +kernel


/-- The terms `R3` of the position of the earth: amplitude, phase and frequency, in units of 1/1 , 1/1000 , 1/1000. -/
theorem spa_R3 : Spa.tabR3 = ([(145, 4273, 6283076), (7, 3920, 12566150)] : List (ℤ × ℤ × ℤ)).map
    fun r => ((r.1 : ℚ) / 1, (r.2.1 : ℚ) / 1000, (r.2.2 : ℚ) / 1000) := by decide +kernel


/-- The terms `R4` of the position of the earth: amplitude, phase and frequency, in units of 1/1 , 1/100 , 1/100. -/
theorem spa_R4 : Spa.tabR4 = ([(4, 256, 628308)] : List (ℤ × ℤ × ℤ)).map
    fun r => ((r.1 : ℚ) / 1, (r.2.1 : ℚ) / 100, (r.2.2 : ℚ) / 100) := by decide +kernel


/-- The coefficients of nutation, in tenths. -/
theorem nutation_coefficients : Spa.nutationAbcd = ([(-1719960, -1742, 920250, 89), (-131870, -16, 57360, -31), (-22740, -2, 9770, -5), (20620, 2, -8950, 5), (14260, -34, 540, -1),
      (7120, 1, -70, 0), (-5170, 12, 2240, -6), (-3860, -4, 2000, 0), (-3010, 0, 1290, -1), (2170, -5, -950, 3), (-1580, 0, 0, 0),
      (1290, 1, -700, 0), (1230, 0, -530, 0), (630, 0, 0, 0), (630, 1, -330, 0), (-590, 0, 260, 0), (-580, -1, 320, 0), (-510, 0, 270, 0),
      (480, 0, 0, 0), (460, 0, -240, 0), (-380, 0, 160, 0), (-310, 0, 130, 0), (290, 0, 0, 0), (290, 0, -120, 0), (260, 0, 0, 0),
      (-220, 0, 0, 0), (210, 0, -100, 0), (170, -1, 0, 0), (160, 0, -80, 0), (-160, 1, 70, 0), (-150, 0, 90, 0), (-130, 0, 70, 0),
      (-120, 0, 60, 0), (110, 0, 0, 0), (-100, 0, 50, 0), (-80, 0, 30, 0), (70, 0, -30, 0), (-70, 0, 0, 0), (-70, 0, 30, 0),
      (-70, 0, 30, 0), (60, 0, 0, 0), (60, 0, -30, 0), (60, 0, -30, 0), (-60, 0, 30, 0), (-60, 0, 30, 0), (50, 0, 0, 0), (-50, 0, 30, 0),
      (-50, 0, 30, 0), (-50, 0, 30, 0), (40, 0, 0, 0), (40, 0, 0, 0), (40, 0, 0, 0), (-40, 0, 0, 0), (-40, 0, 0, 0), (-40, 0, 0, 0),
      (30, 0, 0, 0), (-30, 0, 0, 0), (-30, 0, 0, 0), (-30, 0, 0, 0), (-30, 0, 0, 0), (-30, 0, 0, 0), (-30, 0, 0, 0), (-30, 0, 0, 0)] : List (ℤ × ℤ × ℤ × ℤ)).map
    fun r => ((r.1 : ℚ) / 10, (r.2.1 : ℚ) / 10, (r.2.2.1 : ℚ) / 10, (r.2.2.2 : ℚ) / 10) := by decide +kernel


/-- The arguments of nutation: multiples of the five fundamental arguments, one list per argument. -/
theorem nutation_arguments :
    Spa.nutationY.map (·.1) = [0, -2, 0, 0, 0, 0, -2, 0, 0, -2, -2, -2, 0, 2, 0, 2, 0, 0, -2, 0, 2, 0, 0, -2, 0, -2, 0, 0, 2, -2, 0, -2, 0, 0, 2, 2, 0, -2, 0, 2, 2,
      -2, -2, 2, 2, 0, -2, -2, 0, -2, -2, 0, -1, -2, 1, 0, 0, -1, 0, 0, 2, 0, 2] ∧
    Spa.nutationY.map (·.2.1) = [0, 0, 0, 0, 1, 0, 1, 0, 0, -1, 0, 0, 0, 0, 0, 0, 0, 0, 0, 0, 0, 0, 0, 0, 0, 0, 0, 2, 0, 2, 1, 0, -1, 0, 0, 0, 1, 1, -1, 0, 0, 0, 0, 0,
      0, -1, -1, 0, 0, 0, 1, 0, 0, 1, 0, 0, 0, -1, 1, -1, -1, 0, -1] ∧
    Spa.nutationY.map (·.2.2.1) = [0, 0, 0, 0, 0, 1, 0, 0, 1, 0, 1, 0, -1, 0, 1, -1, -1, 1, 2, -2, 0, 2, 2, 1, 0, 0, -1, 0, -1, 0, 0, 1, 0, 2, -1, 1, 0, 1, 0, 0, 1, 2,
      1, -2, 0, 1, 0, 0, 2, 2, 0, 1, 1, 0, 0, 1, -2, 1, 1, 1, -1, 3, 0] ∧
    Spa.nutationY.map (·.2.2.2.1) = [0, 2, 2, 0, 0, 0, 2, 2, 2, 2, 0, 2, 2, 0, 0, 2, 0, 2, 0, 2, 2, 2, 0, 2, 2, 2, 2, 0, 0, 2, 0, 0, 0, -2, 2, 2, 2, 0, 2, 2, 0, 2, 2, 0,
      0, 0, 2, 0, 2, 0, 2, -2, 0, 0, 0, 2, 2, 0, 0, 2, 2, 2, 2] ∧
    Spa.nutationY.map (·.2.2.2.2) = [1, 2, 2, 2, 0, 0, 2, 1, 2, 2, 0, 1, 2, 0, 1, 2, 1, 1, 0, 1, 2, 2, 0, 2, 0, 0, 1, 0, 1, 2, 1, 1, 1, 0, 1, 2, 2, 0, 2, 1, 0, 2, 1, 1, 1,
      0, 1, 1, 1, 1, 1, 0, 0, 0, 0, 0, 2, 0, 0, 2, 2, 2, 2] := by
  decide +kernel


/-! ### SPECTRL2 -/


/-- The column `wavelength`, in units of 1/10. -/
theorem spectrl2_wavelength : Spectrl2.coeffs.map (fun c => c.wavelength * 10) = [3000, 3050, 3100, 3150, 3200, 3250, 3300, 3350, 3400, 3450, 3500, 3600, 3700, 3800, 3900, 4000, 4100, 4200, 4300, 4400, 4500, 4600,
      4700, 4800, 4900, 5000, 5100, 5200, 5300, 5400, 5500, 5700, 5930, 6100, 6300, 6560, 6676, 6900, 7100, 7180, 7244, 7400, 7525, 7575,
      7625, 7675, 7800, 8000, 8160, 8237, 8315, 8400, 8600, 8800, 9050, 9150, 9250, 9300, 9370, 9480, 9650, 9800, 9935, 10400, 10700, 11000,
      11200, 11300, 11450, 11610, 11700, 12000, 12400, 12700, 12900, 13200, 13500, 13950, 14425, 14625, 14770, 14970, 15200, 15390, 15580,
      15780, 15920, 16100, 16300, 16460, 16780, 17400, 18000, 18600, 19200, 19600, 19850, 20050, 20350, 20650, 21000, 21480, 21980, 22700,
      23600, 24500, 25000, 26000, 27000, 28000, 29000, 30000, 31000, 32000, 33000, 34000, 35000, 36000, 37000, 38000, 39000, 40000] := by decide +kernel


/-- The column `spectral_irradiance_et`, in units of 1/10000. -/
theorem spectrl2_et : Spectrl2.coeffs.map (fun c => c.et * 10000) = [5359, 5583, 6220, 6927, 7151, 8329, 9619, 9319, 9006, 9113, 9755, 9759, 11199, 11038, 10338, 14791, 17013, 17404, 15872, 18370, 20050,
      20430, 19870, 20270, 18960, 19090, 19270, 18310, 18910, 18980, 18920, 18400, 17680, 17280, 16580, 15240, 15310, 14200, 13990, 13740,
      13730, 12980, 12690, 12450, 12230, 12050, 11830, 11480, 10910, 10620, 10380, 10220, 9987, 9472, 8932, 8682, 8297, 8303, 8140, 7869,
      7683, 7670, 7576, 6881, 6407, 6062, 5859, 5702, 5641, 5442, 5334, 5016, 4775, 4427, 4400, 4168, 3914, 3589, 3275, 3175, 3073, 3004,
      2928, 2755, 2721, 2593, 2469, 2440, 2435, 2348, 2205, 1908, 1711, 1445, 1357, 1230, 1238, 1130, 1085, 975, 924, 824, 746, 683, 638,
      495, 485, 386, 366, 320, 281, 248, 221, 196, 175, 157, 141, 127, 115, 104, 95, 86] := by decide +kernel


/-- The column `water_vapor_absorption`, in units of 1/100000. -/
theorem spectrl2_vapor : Spectrl2.coeffs.map (fun c => c.vapor * 100000) = [0, 0, 0, 0, 0, 0, 0, 0, 0, 0, 0, 0, 0, 0, 0, 0, 0, 0, 0, 0, 0, 0, 0, 0, 0, 0, 0, 0, 0, 0, 0, 0, 7500, 0, 0, 0, 0, 1600, 1250, 180000,
      250000, 6100, 80, 10, 1, 1, 60, 3600, 160000, 250000, 50000, 15500, 1, 260, 700000, 500000, 500000, 2700000, 5500000, 4500000, 400000,
      148000, 10000, 1, 100, 320000, 11500000, 7000000, 7500000, 1000000, 500000, 200000, 200, 200, 10000, 400000, 20000000, 100000000,
      18500000, 8000000, 8000000, 1200000, 16000, 200, 50, 10, 1, 10, 100, 1000, 3600, 110000, 13000000, 100000000, 50000000, 10000000,
      400000, 290000, 100000, 40000, 22000, 25000, 33000, 50000, 400000, 8000000, 31000000, 1500000000, 2200000000, 800000000, 65000000,
      24000000, 23000000, 10000000, 12000000, 1950000, 360000, 310000, 250000, 140000, 17000, 450] := by decide +kernel


/-- The column `ozone_absorption`, in units of 1/1000. -/
theorem spectrl2_ozone : Spectrl2.coeffs.map (fun c => c.ozone * 1000) = [10000, 4800, 2700, 1350, 800, 380, 160, 75, 40, 19, 7, 0, 0, 0, 0, 0, 0, 0, 0, 0, 3, 6, 9, 14, 21, 30, 40, 48, 63, 75, 85, 120, 119,
      120, 90, 65, 51, 28, 18, 15, 12, 10, 8, 7, 6, 5, 0, 0, 0, 0, 0, 0, 0, 0, 0, 0, 0, 0, 0, 0, 0, 0, 0, 0, 0, 0, 0, 0, 0, 0, 0, 0, 0, 0,
      0, 0, 0, 0, 0, 0, 0, 0, 0, 0, 0, 0, 0, 0, 0, 0, 0, 0, 0, 0, 0, 0, 0, 0, 0, 0, 0, 0, 0, 0, 0, 0, 0, 0, 0, 0, 0, 0, 0, 0, 0, 0, 0, 0, 0,
      0, 0, 0] := by decide +kernel


/-- The column `mixed_absorption`, in units of 1/100000. -/
theorem spectrl2_mixed : Spectrl2.coeffs.map (fun c => c.mixed * 100000) = [0, 0, 0, 0, 0, 0, 0, 0, 0, 0, 0, 0, 0, 0, 0, 0, 0, 0, 0, 0, 0, 0, 0, 0, 0, 0, 0, 0, 0, 0, 0, 0, 0, 0, 0, 0, 0, 15000, 0, 0, 0, 0, 0,
      0, 400000, 35000, 0, 0, 0, 0, 0, 0, 0, 0, 0, 0, 0, 0, 0, 0, 0, 0, 0, 0, 0, 0, 0, 0, 0, 0, 0, 0, 5000, 30000, 2000, 20, 11, 1, 5000,
      1100, 500, 60, 0, 500, 13000, 4000, 6000, 13000, 100, 140, 10, 1, 1, 10, 100, 430000, 20000, 2100000, 13000, 100000, 8000, 100, 38,
      100, 50, 15, 14, 66, 10000000, 15000000, 13000, 950, 100, 80000, 190000, 130000, 7500, 1000, 195, 400, 29000, 2500] := by decide +kernel


/-! ### Transposition and decomposition -/


/-- The Perez coefficients of every site, row by row, in thousandths; `perezmodel='1990'` is read as in the table. -/
theorem perez_coefficients : Irradiance.perezCoeffs.map (fun p => (p.1, p.2.flatten)) =
    ([("allsitescomposite1990", [-8, 588, -62, -60, 72, -22, 130, 683, -151, -19, 66, -29, 330, 487, -221, 55, -64, -26, 568, 187, -295, 109, -152, -14, 873, -392,
       -362, 226, -462, 1, 1132, -1237, -412, 288, -823, 56, 1060, -1600, -359, 264, -1127, 131, 678, -327, -250, 156, -1377, 251]),
      ("allsitescomposite1988", [-18, 705, -71, -58, 102, -26, 191, 645, -171, 12, 9, -27, 440, 378, -256, 87, -104, -25, 756, -121, -346, 179, -321, -8, 996, -645,
       -405, 260, -590, 17, 1098, -1290, -393, 269, -832, 75, 973, -1135, -378, 124, -258, 149, 689, -412, -273, 199, -1675, 237]),
      ("sandiacomposite1988", [-196, 1084, -6, -114, 180, -19, 236, 519, -180, -11, 20, -38, 454, 321, -255, 72, -98, -46, 866, -381, -375, 203, -403, -49, 1026,
       -711, -426, 273, -602, -61, 978, -986, -350, 280, -915, -24, 748, -913, -236, 173, -1045, 65, 318, -757, 103, 62, -1698, 236]),
      ("usacomposite1988", [-34, 671, -59, -59, 86, -28, 255, 474, -191, 18, -14, -33, 427, 349, -245, 93, -121, -39, 756, -213, -328, 175, -304, -27, 1020, -857,
       -385, 280, -638, -19, 1050, -1344, -348, 280, -893, 37, 974, -1507, -370, 154, -568, 109, 744, -1817, -256, 246, -2618, 230]),
      ("france1988", [13, 764, -100, -58, 127, -23, 95, 920, -152, 0, 51, -20, 464, 421, -280, 64, -51, -2, 759, -9, -373, 201, -382, 10, 976, -400, -436,
       271, -638, 51, 1176, -1254, -462, 295, -975, 129, 1106, -1563, -398, 301, -1442, 212, 934, -1501, -271, 420, -2917, 249]),
      ("phoenix1988", [-3, 728, -97, -75, 142, -43, 279, 354, -176, 30, -55, -54, 469, 168, -246, 48, -42, -57, 856, -519, -340, 176, -380, -31, 941, -625,
       -391, 188, -360, -49, 1056, -1134, -410, 281, -794, -65, 901, -2139, -269, 118, -665, 46, 107, 481, 143, -111, -137, 234]),
      ("elmonte1988", [27, 701, -119, -58, 107, -60, 181, 671, -178, -79, 194, -35, 476, 407, -288, 54, -32, -55, 875, -218, -403, 187, -309, -61, 1166,
       -1014, -454, 211, -410, -44, 1143, -2064, -291, 97, -319, 53, 1094, -2632, -259, 29, -422, 147, 155, 1723, 163, -131, -19, 277]),
      ("osage1988", [-353, 1474, 57, -175, 312, 9, 363, 218, -212, 19, -34, -59, -31, 1262, -84, -82, 231, -17, 691, 39, -295, 91, -131, -35, 1182, -1350,
       -321, 408, -985, -88, 764, 19, -203, 217, -294, -103, 219, 1412, 244, 471, -2988, 34, 3578, 22231, -10745, 2426, 4892, -5687]),
      ("albuquerque1988", [34, 501, -94, -63, 106, -44, 229, 467, -156, -5, -19, -23, 486, 241, -253, 53, -64, -22, 874, -393, -397, 181, -327, -37, 1193, -1296,
       -501, 281, -656, -45, 1056, -1758, -374, 226, -759, 34, 901, -4783, -109, 63, -970, 196, 851, -7055, -53, 60, -2833, 330]),
      ("capecanaveral1988", [75, 533, -124, -67, 42, -20, 295, 497, -218, -8, 3, -29, 514, 81, -261, 75, -160, -29, 747, -329, -325, 181, -416, -30, 901, -883,
       -297, 178, -489, 8, 591, -44, -116, 235, -999, 98, 537, -2402, 320, 169, -1971, 310, -805, 4546, 1072, -258, -950, 753]),
      ("albany1988", [12, 554, -76, -52, 84, -29, 267, 437, -194, 16, 22, -36, 420, 336, -237, 74, -52, -32, 638, -1, -281, 138, -189, -12, 1019, -1027,
       -342, 271, -628, 14, 1149, -1940, -331, 322, -1097, 80, 1434, -3994, -492, 453, -2376, 117, 1007, -2292, -482, 390, -3368, 229])] : List (String × List Int)).map
      fun p => (p.1, p.2.map (10 * ·)) := by decide +kernel


/-- The DIRINT coefficients in millionths: for each bin of the clearness index and each bin of the zenith (36 lists), the bins of its
change and, innermost, of precipitable water. -/
theorem dirint_coefficients : (Irradiance.dirintTableMicro.flatten.map List.flatten) =
    [[385230, 385230, 385230, 462880, 317440, 338390, 338390, 221270, 316730, 503650, 235680, 235680, 241280, 157830, 269440, 830130,
       830130, 171970, 841070, 457370, 548010, 548010, 478000, 966880, 1036370, 548010, 548010, 1000000, 3012370, 1976540, 582690, 582690,
       229720, 892710, 569950],
     [131280, 131280, 385460, 511070, 127940, 223710, 223710, 193560, 304560, 193940, 229970, 229970, 275020, 312730, 244610, 90100, 184580,
       260500, 687480, 579440, 131530, 131530, 370190, 1380350, 1052270, 1116250, 1116250, 928030, 3525490, 2316920, 90100, 237000, 300040,
       812470, 664970],
     [587510, 130000, 400000, 537210, 832490, 306210, 129830, 204460, 500000, 681640, 224020, 260620, 334080, 501040, 350470, 421540,
       753970, 750660, 3706840, 983790, 706680, 373530, 1245670, 864860, 1992630, 4864400, 117390, 265180, 359180, 3310820, 392080, 493290,
       651560, 1932780, 898730],
     [126970, 126970, 126970, 126970, 126970, 810820, 810820, 810820, 810820, 810820, 3241680, 2500000, 2291440, 2291440, 2291440, 4000000,
       3000000, 2000000, 975430, 1965570, 12494170, 12494170, 8000000, 5083520, 8792390, 21744240, 21744240, 21744240, 21744240, 21744240,
       3241680, 12494170, 1620760, 1375250, 2331620],
     [126970, 126970, 126970, 126970, 126970, 810820, 810820, 810820, 810820, 810820, 3241680, 2500000, 2291440, 2291440, 2291440, 4000000,
       3000000, 2000000, 975430, 1965570, 12494170, 12494170, 8000000, 5083520, 8792390, 21744240, 21744240, 21744240, 21744240, 21744240,
       3241680, 12494170, 1620760, 1375250, 2331620],
     [126970, 126970, 126970, 126970, 126970, 810820, 810820, 810820, 810820, 810820, 3241680, 2500000, 2291440, 2291440, 2291440, 4000000,
       3000000, 2000000, 975430, 1965570, 12494170, 12494170, 8000000, 5083520, 8792390, 21744240, 21744240, 21744240, 21744240, 21744240,
       3241680, 12494170, 1620760, 1375250, 2331620],
     [337440, 337440, 969110, 1097190, 1116080, 337440, 337440, 969110, 1116030, 623900, 337440, 337440, 1530590, 1024420, 908480, 584040,
       584040, 847250, 914940, 1289300, 337440, 337440, 310240, 1435020, 1852830, 337440, 337440, 1015010, 1097190, 2117230, 337440, 337440,
       969110, 1145730, 1476400],
     [300000, 300000, 700000, 1100000, 796940, 219870, 219870, 526530, 809610, 649300, 386650, 386650, 119320, 576120, 685460, 746730,
       399830, 470970, 986530, 785370, 575420, 936700, 1649200, 1495840, 1335590, 1319670, 4002570, 1276390, 2644550, 2518670, 665190,
       678910, 1012360, 1199940, 986580],
     [378870, 974060, 500000, 491880, 665290, 105210, 263470, 407040, 553460, 582590, 312900, 345240, 1144180, 854790, 612280, 119070,
       365120, 560520, 793720, 802600, 781610, 837390, 1270420, 1537980, 1292950, 1152290, 1152290, 1492080, 1245370, 2177100, 424660,
       529550, 966910, 1033460, 958730],
     [310590, 714410, 252450, 500000, 607600, 975190, 363420, 500000, 400000, 502800, 175580, 196250, 476360, 1072470, 490510, 719280,
       698620, 657770, 1190840, 681110, 426240, 1464840, 678550, 1157730, 978430, 2501120, 1789130, 1387090, 2394180, 2394180, 491640,
       677610, 685610, 1082400, 735410],
     [597000, 500000, 300000, 310050, 413510, 314790, 336310, 400000, 400000, 442460, 166510, 460440, 552570, 1000000, 461610, 401020,
       559110, 403630, 1016710, 671490, 400360, 750830, 842640, 1802600, 1023830, 3315300, 1510380, 2443650, 1638820, 2133990, 530790,
       745850, 693050, 1458040, 804500],
     [597000, 500000, 300000, 310050, 800920, 314790, 336310, 400000, 400000, 237040, 166510, 460440, 552570, 1000000, 581990, 401020,
       559110, 403630, 1016710, 898570, 400360, 750830, 842640, 1802600, 3400390, 3315300, 1510380, 2443650, 1638820, 2508780, 204340,
       1157740, 2003080, 2622080, 1409380],
     [1242210, 1242210, 1242210, 1242210, 1242210, 56980, 56980, 656990, 656990, 925160, 89090, 89090, 1040430, 1232480, 1205300, 1053850,
       1053850, 1399690, 1084640, 1233340, 1151540, 1151540, 1118290, 1531640, 1411840, 1494980, 1494980, 1700000, 1800810, 1671600, 1018450,
       1018450, 1153600, 1321890, 1294670],
     [700000, 700000, 1023460, 700000, 945830, 886300, 886300, 1333620, 800000, 1066620, 902180, 902180, 954330, 1126690, 1097310, 1095300,
       1075060, 1176490, 1139470, 1096110, 1201660, 1201660, 1438200, 1256280, 1198060, 1525850, 1525850, 1869160, 1985410, 1911590, 1288220,
       1082810, 1286370, 1166170, 1119330],
     [600000, 1029910, 859890, 550000, 813600, 604450, 1029910, 859890, 656700, 928840, 455850, 750580, 804930, 823000, 911000, 526580,
       932310, 908620, 983520, 988090, 1036110, 1100690, 848380, 1035270, 1042380, 1048440, 1652720, 900000, 2350410, 1082950, 817410,
       976160, 861300, 974780, 1004580],
     [782110, 564280, 600000, 600000, 665740, 894480, 680730, 541990, 800000, 669140, 487460, 818950, 841830, 872540, 709040, 709310,
       872780, 908480, 953290, 844350, 863920, 947770, 876220, 1078750, 936910, 1280350, 866720, 769790, 1078750, 975130, 725420, 869970,
       868810, 951190, 829220],
     [791750, 654040, 483170, 409000, 597180, 566140, 948990, 971820, 653570, 718550, 648710, 637730, 870510, 860600, 694300, 637630,
       767610, 925670, 990310, 847670, 736380, 946060, 1117590, 1029340, 947020, 1180970, 850000, 1050000, 950000, 888580, 700560, 801440,
       961970, 906140, 823880],
     [500000, 500000, 586770, 470550, 629790, 500000, 500000, 1056220, 1260140, 658140, 500000, 500000, 631830, 842620, 582780, 554710,
       734730, 985820, 915640, 898260, 712510, 1205990, 909510, 1078260, 885610, 1899260, 1559710, 1000000, 1150000, 1120390, 653880, 793120,
       903320, 944070, 796130],
     [1000000, 1000000, 1050000, 1170380, 1178090, 960580, 960580, 1059530, 1179030, 1131690, 871470, 871470, 995860, 1141910, 1114600,
       1201590, 1201590, 993610, 1109380, 1126320, 1065010, 1065010, 828660, 939970, 1017930, 1065010, 1065010, 623690, 1119620, 1132260,
       1071570, 1071570, 958070, 1114130, 1127110],
     [950000, 973390, 852520, 1092200, 1096590, 804120, 913870, 980990, 1094580, 1042420, 737540, 935970, 999940, 1056490, 1050060, 1032980,
       1034540, 968460, 1032080, 1015780, 900000, 977210, 945960, 1008840, 969960, 600000, 750000, 750000, 844710, 899100, 926800, 965030,
       968520, 1044910, 1032310],
     [850000, 1029710, 961100, 1055670, 1009700, 818530, 960010, 996450, 1081970, 1036470, 765380, 953500, 948260, 1052110, 1000140, 775610,
       909610, 927800, 987800, 952100, 1000990, 881880, 875950, 949100, 893690, 902370, 875960, 807990, 942410, 917920, 856580, 928270,
       946820, 1032260, 972990],
     [750000, 857930, 983800, 1056540, 980240, 750000, 987010, 1013730, 1133780, 1038250, 800000, 947380, 1012380, 1091270, 999840, 800000,
       914550, 908570, 999190, 915230, 778540, 800590, 799070, 902180, 851560, 680190, 317410, 507680, 388910, 646710, 794920, 912780,
       960830, 1057110, 947950],
     [750000, 833890, 867530, 1059890, 932840, 979700, 971470, 995510, 1068490, 1030150, 858850, 987920, 1043220, 1108700, 1044900, 802400,
       955110, 911660, 1045070, 944470, 884890, 766210, 885390, 859070, 818190, 615680, 700000, 850000, 624620, 669300, 835570, 946150,
       977090, 1049350, 979970],
     [689220, 809600, 900000, 789500, 853990, 854660, 852840, 938200, 923110, 955010, 938600, 932980, 1010390, 1043950, 1041640, 843620,
       981300, 951590, 946100, 966330, 694740, 814690, 572650, 400000, 726830, 211370, 671780, 416340, 297290, 498050, 843540, 882330,
       911760, 898420, 960210],
     [1054880, 1075210, 1068460, 1153370, 1069220, 1000000, 1062220, 1013470, 1088170, 1046200, 885090, 993530, 942590, 1054990, 1012740,
       920000, 950000, 978720, 1020280, 984440, 850000, 908500, 839940, 985570, 962180, 800000, 800000, 810080, 950000, 961550, 1038590,
       1063200, 1034440, 1112780, 1037800],
     [1017610, 1028360, 1058960, 1133180, 1045620, 920000, 998970, 1033590, 1089030, 1022060, 912370, 949930, 979770, 1020420, 981770,
       847160, 935300, 930540, 955050, 946560, 880260, 867110, 874130, 972650, 883420, 627150, 627150, 700000, 774070, 845130, 973700,
       1006240, 1026190, 1071960, 1017240],
     [1028710, 1017570, 1025900, 1081790, 1024240, 924980, 985500, 1014100, 1092210, 999610, 828570, 934920, 994950, 1024590, 949710,
       900810, 901330, 928830, 979570, 913100, 761030, 845150, 805360, 936790, 853460, 626400, 546750, 730500, 850000, 689050, 957630,
       985480, 991790, 1050220, 987900],
     [992730, 993880, 1017150, 1059120, 1017450, 975610, 987160, 1026820, 1075440, 1007250, 871090, 933190, 974690, 979840, 952730, 828750,
       868090, 834920, 905510, 871530, 781540, 782470, 767910, 764140, 795890, 743460, 693390, 514870, 630150, 715660, 934760, 957870,
       959640, 972510, 981640],
     [965840, 941240, 987100, 1022540, 1011160, 988630, 994770, 976590, 950000, 1034840, 958200, 1018080, 974480, 920000, 989870, 811720,
       869090, 812020, 850000, 821050, 682030, 679480, 632450, 746580, 738550, 668290, 445860, 500000, 678920, 696510, 926940, 953350,
       959050, 876210, 991490],
     [948940, 997760, 850000, 826520, 998470, 1017860, 970000, 850000, 700000, 988560, 1000000, 950000, 850000, 606240, 947260, 1000000,
       746140, 751740, 598390, 725230, 922210, 500000, 376800, 517110, 548630, 500000, 450000, 429970, 404490, 539940, 960430, 881630,
       775640, 596350, 937680],
     [1030000, 1040000, 1000000, 1000000, 1049510, 1050000, 990000, 990000, 950000, 996530, 1050000, 990000, 990000, 820000, 971940,
       1050000, 790000, 880000, 820000, 951840, 1000000, 530000, 440000, 710000, 928730, 540000, 470000, 500000, 550000, 773950, 1038270,
       920180, 910930, 821140, 1034560],
     [1041020, 997520, 961600, 1000000, 1035780, 948030, 980000, 900000, 950360, 977460, 950000, 977250, 869270, 800000, 951680, 951870,
       850000, 748770, 700000, 883850, 900000, 823190, 727450, 600000, 839870, 850000, 805020, 692310, 500000, 788410, 1010090, 895270,
       773030, 816280, 1011680],
     [1022450, 1004600, 983650, 1000000, 1032940, 943960, 999240, 983920, 905990, 978150, 936240, 946480, 850000, 850000, 930320, 816420,
       885000, 644950, 817650, 865310, 742960, 765690, 561520, 700000, 827140, 643870, 596710, 474460, 600000, 651200, 971740, 940560,
       714880, 864380, 1001650],
     [995260, 977010, 1000000, 1000000, 1035250, 939810, 975250, 939980, 950000, 982550, 876870, 879440, 850000, 900000, 917810, 873480,
       873450, 751470, 850000, 863040, 761470, 702360, 638770, 750000, 783120, 734080, 650000, 600000, 650000, 715660, 942160, 919100,
       770340, 731170, 995180],
     [952560, 916780, 920000, 900000, 1005880, 928620, 994420, 900000, 900000, 983720, 913070, 850000, 850000, 800000, 924280, 868090,
       807170, 823550, 600000, 844520, 769570, 719870, 650000, 550000, 733500, 580250, 650000, 600000, 500000, 628850, 904770, 852650,
       708370, 493730, 949030],
     [911970, 800000, 800000, 800000, 956320, 912620, 682610, 750000, 700000, 950110, 653450, 659330, 700000, 600000, 856110, 648440,
       600000, 641120, 500000, 695780, 570000, 550000, 598800, 400000, 560150, 475230, 500000, 518640, 339970, 520230, 743440, 592190,
       603060, 316930, 794390]] := by decide +kernel


/-! ### Names of variables -/


/-- The names of the SRML variables. -/
theorem srml_names : IoTables.srmlMap = [("100", "ghi"), ("201", "dni"), ("300", "dhi"), ("920", "wind_direction"), ("921", "wind_speed"), ("930", "temp_air"),
      ("931", "temp_dew"), ("933", "relative_humidity"), ("937", "temp_cell")] := by decide +kernel


/-- The names of the NASA POWER variables. -/
theorem nasa_names : IoServices.nasaMap = [("ALLSKY_SFC_SW_DWN", "ghi"), ("ALLSKY_SFC_SW_DIFF", "dhi"), ("ALLSKY_SFC_SW_DNI", "dni"), ("ALLSKY_SRF_ALB", "albedo"),
      ("ALLSKY_SFC_LW_DWN", "longwave_down"), ("CLRSKY_SFC_SW_DIFF", "dhi_clear"), ("CLRSKY_SFC_SW_DNI", "dni_clear"),
      ("CLRSKY_SFC_SW_DWN", "ghi_clear"), ("PS", "pressure"), ("RH2M", "relative_humidity"), ("T2M", "temp_air"), ("T2MDEW", "temp_dew"),
      ("TQV", "precipitable_water"), ("TOA_SW_DWN", "ghi_extra"), ("WS2M", "wind_speed_2m"), ("WS10M", "wind_speed")] := by decide +kernel


/-- The names of the ERA5 variables. -/
theorem era5_names : IoServices.era5Map = [("d2m", "temp_dew"), ("t2m", "temp_air"), ("sp", "pressure"), ("ssrd", "ghi"), ("fdir", "bhi"), ("tp", "precipitation"),
      ("strd", "longwave_down"), ("2m_dewpoint_temperature", "temp_dew"), ("2m_temperature", "temp_air"), ("surface_pressure", "pressure"),
      ("surface_solar_radiation_downwards", "ghi"), ("total_sky_direct_solar_radiation_at_surface", "bhi"),
      ("total_precipitation", "precipitation"), ("surface_thermal_radiation_downwards", "longwave_down")] := by decide +kernel


/-- The names of the MERRA-2 variables. -/
theorem merra2_names : IoServices.merra2Map = [("SWGDN", "ghi"), ("SWGDNCLR", "ghi_clear"), ("ALBEDO", "albedo"), ("LWGNT", "longwave_net"), ("LWGAB", "longwave_down"),
      ("T2M", "temp_air"), ("PS", "pressure"), ("TOTEXTTAU", "aod550"), ("TQV", "precipitable_water")] := by decide +kernel


/-- The names of the PSM4 variables. -/
theorem psm4_names : IoServices.psm4Map = [("GHI", "ghi"), ("DHI", "dhi"), ("DNI", "dni"), ("Clearsky GHI", "ghi_clear"), ("Clearsky DHI", "dhi_clear"),
      ("Clearsky DNI", "dni_clear"), ("Solar Zenith Angle", "solar_zenith"), ("Temperature", "temp_air"), ("Dew Point", "temp_dew"),
      ("Relative Humidity", "relative_humidity"), ("Pressure", "pressure"), ("Wind Speed", "wind_speed"),
      ("Wind Direction", "wind_direction"), ("Surface Albedo", "albedo"), ("Precipitable Water", "precipitable_water"), ("AOD", "aod")] := by decide +kernel


/-- The names for requests of PSM4 variables. -/
theorem psm4_request_names : IoServices.psm4RequestMap = [("ghi", "ghi"), ("dhi", "dhi"), ("dni", "dni"), ("ghi_clear", "clearsky_ghi"), ("dhi_clear", "clearsky_dhi"),
      ("dni_clear", "clearsky_dni"), ("solar_zenith", "solar_zenith_angle"), ("temp_air", "air_temperature"), ("temp_dew", "dew_point"),
      ("relative_humidity", "relative_humidity"), ("pressure", "surface_pressure"), ("wind_speed", "wind_speed"),
      ("wind_direction", "wind_direction"), ("albedo", "surface_albedo"), ("precipitable_water", "total_precipitable_water"), ("aod", "aod")] := by decide +kernel


/-- The names of the Meteonorm variables. -/
theorem meteonorm_names : IoServices.meteonormMap = [("global_horizontal_irradiance", "ghi"), ("diffuse_horizontal_irradiance", "dhi"), ("direct_normal_irradiance", "dni"),
      ("direct_horizontal_irradiance", "bhi"), ("global_clear_sky_irradiance", "ghi_clear"), ("diffuse_clear_sky_irradiance", "dhi_clear"),
      ("direct_normal_clear_sky_irradiance", "dni_clear"), ("direct_horizontal_clear_sky_irradiance", "bhi_clear"),
      ("diffuse_tilted_irradiance", "poa_diffuse"), ("direct_tilted_irradiance", "poa_direct"), ("global_tilted_irradiance", "poa"),
      ("temperature", "temp_air"), ("dew_point_temperature", "temp_dew")] := by decide +kernel


/-- The time steps of Meteonorm. -/
theorem meteonorm_steps : IoRequests.meteonormSteps = [("1h", "1_hour"), ("h", "1_hour"), ("15min", "15_minutes"), ("1min", "1_minute"), ("min", "1_minute")] := by decide +kernel


/-- The names of each MIDC station. -/
theorem midc_names : Midc.stationMaps = [("BMS", [("Global CMP22 (vent/cor) [W/m^2]", "ghi"), ("Direct CHP1-1 [W/m^2]", "dni_chp1"), ("Direct NIP [W/m^2]", "dni_nip"),
      ("Diffuse CM22-1 (vent/cor) [W/m^2]", "dhi"), ("Avg Wind Speed @ 6ft [m/s]", "wind_speed"),
      ("Tower Dry Bulb Temp [deg C]", "temp_air"), ("Tower RH [%]", "relative_humidity")]),
      ("UOSMRL", [("Global CMP22 [W/m^2]", "ghi"), ("Direct CHP1 [W/m^2]", "dni_chp1"), ("Diffuse [W/m^2]", "dhi"), ("Direct NIP [W/m^2]", "dni_nip"),
      ("Air Temperature [deg C]", "temp_air"), ("Relative Humidity [%]", "relative_humidity"), ("Avg Wind Speed @ 10m [m/s]", "wind_speed")]),
      ("HSU", [("Global Horiz [W/m^2]", "ghi"), ("Direct Normal (calc) [W/m^2]", "dni"), ("Diffuse Horiz (band_corr) [W/m^2]", "dhi")]),
      ("UTPASRL", [("Global Horizontal [W/m^2]", "ghi"), ("Direct Normal [W/m^2]", "dni"), ("Diffuse Horizontal [W/m^2]", "dhi"),
      ("CHP1 Temp [deg C]", "temp_air")]),
      ("UAT", [("Global Horiz (platform) [W/m^2]", "ghi"), ("Direct Normal [W/m^2]", "dni"), ("Diffuse Horiz [W/m^2]", "dhi"),
      ("Air Temperature [deg C]", "temp_air"), ("Rel Humidity [%]", "relative_humidity"), ("Avg Wind Speed @ 3m [m/s]", "wind_speed")]),
      ("STAC", [("Global Horizontal [W/m^2]", "ghi"), ("Direct Normal [W/m^2]", "dni"), ("Diffuse Horizontal [W/m^2]", "dhi"),
      ("Avg Wind Speed @ 10m [m/s]", "wind_speed"), ("Air Temperature [deg C]", "temp_air"), ("Rel Humidity [%]", "relative_humidity")]),
      ("UNLV", [("Global Horiz [W/m^2]", "ghi"), ("Direct Normal [W/m^2]", "dni"), ("Diffuse Horiz (calc) [W/m^2]", "dhi"),
      ("Dry Bulb Temp [deg C]", "temp_air"), ("Avg Wind Speed @ 30ft [m/s]", "wind_speed")]),
      ("ORNL", [("Global Horizontal [W/m^2]", "ghi"), ("Direct Normal [W/m^2]", "dni"), ("Diffuse Horizontal [W/m^2]", "dhi"),
      ("Air Temperature [deg C]", "temp_air"), ("Rel Humidity [%]", "relative_humidity"), ("Avg Wind Speed @ 42ft [m/s]", "wind_speed")]),
      ("NELHA", [("Global Horizontal [W/m^2]", "ghi"), ("Air Temperature [W/m^2]", "temp_air"), ("Avg Wind Speed @ 10m [m/s]", "wind_speed"),
      ("Rel Humidity [%]", "relative_humidity")]),
      ("ULL", [("Global Horizontal [W/m^2]", "ghi"), ("Direct Normal [W/m^2]", "dni"), ("Diffuse Horizontal [W/m^2]", "dhi"),
      ("Air Temperature [deg C]", "temp_air"), ("Rel Humidity [%]", "relative_humidity"), ("Avg Wind Speed @ 3m [m/s]", "wind_speed")]),
      ("NWTC", [("Global Horizontal [W/m^2]", "ghi"), ("Direct Normal [W/m^2]", "dni"), ("Diffuse Horizontal [W/m^2]", "dhi"),
      ("Temperature @ 2m [deg C]", "temp_air"), ("Avg Wind Speed @ 2m [m/s]", "wind_speed"), ("Relative Humidity [%]", "relative_humidity")])] := by decide +kernel


/-- The cell types of the technologies in the databases. -/
theorem cell_types : PvSystem.cellTypes = [("Multi-c-Si", some "multisi"), ("Mono-c-Si", some "monosi"), ("Thin Film", some "cigs"), ("a-Si/nc", some "asi"),
      ("CIS", some "cigs"), ("CIGS", some "cigs"), ("1-a-Si", some "asi"), ("CdTe", some "cdte"), ("a-Si", some "asi"), ("2-a-Si", none),
      ("3-a-Si", none), ("HIT-Si", some "monosi"), ("mc-Si", some "multisi"), ("c-Si", some "multisi"), ("Si-Film", some "asi"),
      ("EFG mc-Si", some "multisi"), ("GaAs", none), ("a-Si / mono-Si", some "monosi")] := by decide +kernel


/-- The widths of the fields of a TMY2 line, and which of them are text. -/
theorem tmy2_widths : IoIndex.tmy2Widths.map Prod.fst = [2, 2, 2, 2, 4, 4, 4, 1, 1, 4, 1, 1, 4, 1, 1, 4, 1, 1, 4, 1, 1, 4, 1, 1, 4, 1, 1, 2, 1, 1, 2, 1, 1, 4, 1, 1, 4, 1, 1, 3, 1, 1, 4, 1, 1,
      3, 1, 1, 3, 1, 1, 4, 1, 1, 5, 1, 1, 10, 3, 1, 1, 3, 1, 1, 3, 1, 1, 2, 1, 1] ∧
    IoIndex.tmy2Widths.map (fun p => if p.2 = 's' then 1 else 0) = [0, 0, 0, 0, 0, 0, 0, 1, 0, 0, 1, 0, 0, 1, 0, 0, 1, 0, 0, 1, 0, 0, 1, 0, 0, 1, 0, 0, 1, 0, 0, 1, 0, 0, 1, 0, 0, 1, 0, 0, 1, 0, 0, 1, 0,
      0, 1, 0, 0, 1, 0, 0, 1, 0, 0, 1, 0, 0, 0, 1, 0, 0, 1, 0, 0, 1, 0, 0, 1, 0] ∧
    (∀ p ∈ IoIndex.tmy2Widths, p.2 = 's' ∨ p.2 = 'd') := by decide +kernel


/-- The names of the fields of a TMY2 line. -/
theorem tmy2_names : IoIndex.tmy2Columns = ["year", "month", "day", "hour", "ETR", "ETRN", "GHI", "GHISource", "GHIUncertainty", "DNI", "DNISource", "DNIUncertainty", "DHI",
      "DHISource", "DHIUncertainty", "GHillum", "GHillumSource", "GHillumUncertainty", "DNillum", "DNillumSource", "DNillumUncertainty",
      "DHillum", "DHillumSource", "DHillumUncertainty", "Zenithlum", "ZenithlumSource", "ZenithlumUncertainty", "TotCld", "TotCldSource",
      "TotCldUncertainty", "OpqCld", "OpqCldSource", "OpqCldUncertainty", "DryBulb", "DryBulbSource", "DryBulbUncertainty", "DewPoint",
      "DewPointSource", "DewPointUncertainty", "RHum", "RHumSource", "RHumUncertainty", "Pressure", "PressureSource", "PressureUncertainty",
      "Wdir", "WdirSource", "WdirUncertainty", "Wspd", "WspdSource", "WspdUncertainty", "Hvis", "HvisSource", "HvisUncertainty", "CeilHgt",
      "CeilHgtSource", "CeilHgtUncertainty", "PresentWeather", "Pwat", "PwatSource", "PwatUncertainty", "AOD", "AODSource",
      "AODUncertainty", "SnowDepth", "SnowDepthSource", "SnowDepthUncertainty", "LastSnowfall", "LastSnowfallSource",
      "LastSnowfallUncertaint"] := by decide +kernel


/-- The columns of logical record 0100 of a BSRN file. -/
theorem bsrn_columns_0100 : IoTables.lr0100Columns = ["day", "minute", "ghi", "ghi_std", "ghi_min", "ghi_max", "dni", "dni_std", "dni_min", "dni_max", "empty", "empty", "empty", "empty",
      "empty", "dhi", "dhi_std", "dhi_min", "dhi_max", "lwd", "lwd_std", "lwd_min", "lwd_max", "temp_air", "relative_humidity", "pressure"] := by decide +kernel


/-- Where they begin and where they end. -/
theorem bsrn_fields_0100 : IoTables.lr0100Specs.map Prod.fst = [0, 4, 10, 16, 22, 27, 32, 39, 45, 50, 55, 64, 70] ∧
    IoTables.lr0100Specs.map Prod.snd = [3, 9, 16, 22, 27, 32, 39, 45, 50, 55, 64, 70, 75] := by decide +kernel


/-- The columns of logical record 0300 of a BSRN file. -/
theorem bsrn_columns_0300 : IoTables.lr0300Columns = ["day", "minute", "gri", "gri_std", "gri_min", "gri_max", "lwu", "lwu_std", "lwu_min", "lwu_max", "net_radiation", "net_radiation_std",
      "net_radiation_min", "net_radiation_max"] := by decide +kernel


/-- Where they begin and where they end. -/
theorem bsrn_fields_0300 : IoTables.lr0300Specs.map Prod.fst = [1, 4, 10, 16, 22, 27, 31, 38, 44, 49, 54, 61, 67, 72] ∧
    IoTables.lr0300Specs.map Prod.snd = [3, 9, 16, 22, 27, 31, 38, 44, 49, 54, 61, 67, 72, 78] := by decide +kernel


/-- The columns of logical record 0500 of a BSRN file. -/
theorem bsrn_columns_0500 : IoTables.lr0500Columns = ["day", "minute", "uva_global", "uva_global_std", "uva_global_min", "uva_global_max", "uvb_direct", "uvb_direct_std", "uvb_direct_min",
      "uvb_direct_max", "empty", "empty", "empty", "empty", "empty", "empty", "uvb_global", "uvb_global_std", "uvb_global_min",
      "uvb_global_max", "uvb_diffuse", "uvb_diffuse_std", "uvb_diffuse_min", "uvb_diffuse_max", "uvb_reflected", "uvb_reflected_std",
      "uvb_reflected_min", "uvb_reflected_max"] := by decide +kernel


/-- Where they begin and where they end. -/
theorem bsrn_fields_0500 : IoTables.lr0500Specs.map Prod.fst = [0, 3, 8, 14, 20, 26, 32, 38, 44, 50, 56, 62, 68, 74] ∧
    IoTables.lr0500Specs.map Prod.snd = [3, 8, 14, 20, 26, 32, 38, 44, 50, 56, 62, 68, 74, 80] := by decide +kernel


/-- The names of the Solcast variables. -/
theorem solcast_names : IoServices.solcastMap.map (fun m => (m.service, m.pvlib)) = [("air_temp", "temp_air"), ("surface_pressure", "pressure"), ("dewpoint_temp", "temp_dew"), ("gti", "poa_global"),
      ("wind_speed_10m", "wind_speed"), ("wind_direction_10m", "wind_direction"), ("azimuth", "solar_azimuth"),
      ("precipitable_water", "precipitable_water"), ("zenith", "solar_zenith"), ("clearsky_dhi", "dhi_clear"),
      ("clearsky_dni", "dni_clear"), ("clearsky_ghi", "ghi_clear"), ("clearsky_gti", "poa_global_clear")] := by decide +kernel


/-- The names of the Solargis variables. -/
theorem solargis_names : IoServices.solargisMap.map (fun m => (m.service, m.pvlib)) = [("GHI", "ghi"), ("GHI_C", "ghi_clear"), ("GHIc", "ghi_clear"), ("DNI", "dni"), ("DNI_C", "dni_clear"), ("DNIc", "dni_clear"),
      ("DIF", "dhi"), ("GTI", "poa_global"), ("GTI_C", "poa_global_clear"), ("GTIc", "poa_global_clear"), ("SE", "solar_elevation"),
      ("SA", "solar_azimuth"), ("TEMP", "temp_air"), ("TD", "temp_dew"), ("AP", "pressure"), ("RH", "relative_humidity"),
      ("WS", "wind_speed"), ("WD", "wind_direction"), ("INC", "aoi"), ("PWAT", "precipitable_water")] := by decide +kernel


/-- The Solargis columns where -9 means missing. -/
theorem solargis_minus_nine : IoServices.solargisMinusNine = ["GHI", "GHIc", "DNI", "DNIc", "DIF", "GTI", "GIc", "KT", "PAR", "PREC", "PWAT", "SDWE", "SFWE"] := by decide +kernel


/-! ### Numbers by name -/


/-- The albedos of named surfaces, in hundredths. -/
theorem surface_albedos : Irradiance.surfaceAlbedos = ([("urban", 18), ("grass", 20), ("fresh grass", 26), ("soil", 17), ("sand", 40), ("snow", 65), ("fresh snow", 75), ("asphalt", 12),
      ("concrete", 30), ("aluminum", 85), ("copper", 74), ("fresh steel", 35), ("dirty steel", 8), ("sea", 6)] : List (String × ℤ)).map
    fun p => (p.1, Fl.fin ((p.2 : ℝ) / 100)) := by
  simp only [Irradiance.surfaceAlbedos, List.map, Fl.ofScientific_eq, Fl.ofNat_eq, Fl.one_eq, Fl.zero_eq, Fl.neg_fin]
  norm_num


/-- The colour coefficients of water, in hundredths. -/
theorem water_color : Albedo.waterColor = ([("clear_water_no_waves", 13), ("clear_water_ripples_up_to_2.5cm", 16),
      ("clear_water_ripples_larger_than_2.5cm_occasional_whitecaps", 23), ("clear_water_frequent_whitecaps", 30),
      ("green_water_ripples_up_to_2.5cm", 22), ("muddy_water_no_waves", 19)] : List (String × ℤ)).map
    fun p => (p.1, Fl.fin ((p.2 : ℝ) / 100)) := by
  simp only [Albedo.waterColor, List.map, Fl.ofScientific_eq, Fl.ofNat_eq, Fl.one_eq, Fl.zero_eq, Fl.neg_fin]
  norm_num


/-- The roughness coefficients of water, in hundredths. -/
theorem water_roughness : Albedo.waterRoughness = ([("clear_water_no_waves", 29), ("clear_water_ripples_up_to_2.5cm", 70),
      ("clear_water_ripples_larger_than_2.5cm_occasional_whitecaps", 125), ("clear_water_frequent_whitecaps", 200),
      ("green_water_ripples_up_to_2.5cm", 70), ("muddy_water_no_waves", 29)] : List (String × ℤ)).map
    fun p => (p.1, Fl.fin ((p.2 : ℝ) / 100)) := by
  simp only [Albedo.waterRoughness, List.map, Fl.ofScientific_eq, Fl.ofNat_eq, Fl.one_eq, Fl.zero_eq, Fl.neg_fin]
  norm_num


/-- The codes for missing values of CRN files. -/
theorem crn_missing_codes : IoTables.crnMissing = ([("CRX_VN", -99999), ("AIR_TEMPERATURE", -9999), ("PRECIPITATION", -9999), ("SOLAR_RADIATION", -99999), ("SURFACE_TEMPERATURE", -9999),
      ("RELATIVE_HUMIDITY", -9999), ("SOIL_MOISTURE_5", -99), ("SOIL_TEMPERATURE_5", -9999), ("WETNESS", -9999), ("WIND_1_5", -99)] : List (String × ℤ)).map
    fun p => (p.1, Fl.fin ((p.2 : ℝ) / 1)) := by
  simp only [IoTables.crnMissing, List.map, Fl.ofScientific_eq, Fl.ofNat_eq, Fl.one_eq, Fl.zero_eq, Fl.neg_fin]
  norm_num


/-- The parameters of the SAPM temperature model by mounting, in units of 1/10000. -/
theorem sapm_temperatures : PvSystem.sapmTemps = ([("open_rack_glass_glass", -34700, -594, 30000), ("close_mount_glass_glass", -29800, -471, 10000),
      ("open_rack_glass_polymer", -35600, -750, 30000), ("insulated_back_glass_polymer", -28100, -455, 0)] : List (String × ℤ × ℤ × ℤ)).map
    fun p => (p.1, [("a", .num (Fl.fin ((p.2.1 : ℝ) / 10000))), ("b", .num (Fl.fin ((p.2.2.1 : ℝ) / 10000))),
      ("deltaT", .num (Fl.fin ((p.2.2.2 : ℝ) / 10000)))]) := by
  simp only [PvSystem.sapmTemps, List.map, Fl.ofScientific_eq, Fl.ofNat_eq, Fl.one_eq, Fl.zero_eq, Fl.neg_fin]
  norm_num


/-- The parameters of the PVsyst temperature model by mounting. -/
theorem pvsyst_temperatures : PvSystem.pvsystTemps "freestanding" = [("u_c", .num (Fl.fin 29)), ("u_v", .num (Fl.fin 0))] ∧
    PvSystem.pvsystTemps "insulated" = [("u_c", .num (Fl.fin 15)), ("u_v", .num (Fl.fin 0))] ∧
    PvSystem.pvsystTemps "semi_integrated" = [("u_c", .num (Fl.fin 20)), ("u_v", .num (Fl.fin 0))] := by
  simp only [PvSystem.pvsystTemps, Fl.ofNat_eq, Fl.zero_eq]
  simp


/-- The Huld coefficients of PVGIS 5, in millionths. -/
theorem huld_pvgis5 : PvArray.huldPvgis5 = ([("csi", -17237, -40465, -4702, 149, 170, 5), ("cis", -5554, -38724, -3723, -905, -1256, 1),
      ("cdte", -46689, -72844, -2262, 276, 159, -6)] : List (String × ℤ × ℤ × ℤ × ℤ × ℤ × ℤ)).map
    fun p => (p.1, ⟨Fl.fin ((p.2.1 : ℝ) / 1000000), Fl.fin ((p.2.2.1 : ℝ) / 1000000), Fl.fin ((p.2.2.2.1 : ℝ) / 1000000),
      Fl.fin ((p.2.2.2.2.1 : ℝ) / 1000000), Fl.fin ((p.2.2.2.2.2.1 : ℝ) / 1000000), Fl.fin ((p.2.2.2.2.2.2 : ℝ) / 1000000)⟩) := by
  simp only [PvArray.huldPvgis5, List.map, Fl.ofScientific_eq, Fl.ofNat_eq, Fl.one_eq, Fl.zero_eq, Fl.neg_fin]
  norm_num


/-- The Huld coefficients of PVGIS 6, in millionths. -/
theorem huld_pvgis6 : PvArray.huldPvgis6 = ([("csi", -6756, -16444, -3015, -45, -43, 0), ("cis", -11001, -29734, -2887, 217, -163, 0), ("cdte", -20644, -35136, -3406, 73, -141, 2)] : List (String × ℤ × ℤ × ℤ × ℤ × ℤ × ℤ)).map
    fun p => (p.1, ⟨Fl.fin ((p.2.1 : ℝ) / 1000000), Fl.fin ((p.2.2.1 : ℝ) / 1000000), Fl.fin ((p.2.2.2.1 : ℝ) / 1000000),
      Fl.fin ((p.2.2.2.2.1 : ℝ) / 1000000), Fl.fin ((p.2.2.2.2.2.1 : ℝ) / 1000000), Fl.fin ((p.2.2.2.2.2.2 : ℝ) / 1000000)⟩) := by
  simp only [PvArray.huldPvgis6, List.map, Fl.ofScientific_eq, Fl.ofNat_eq, Fl.one_eq, Fl.zero_eq, Fl.neg_fin]
  norm_num


/-- Knots and control points of the Perez-Driesse splines, in thousandths. -/
theorem perez_driesse_splines :
    Irradiance.pdKnots = ([0, 0, 0, 61, 187, 333, 487, 643, 778, 839, 1000, 1000, 1000] : List ℤ).map (fun n => (n : ℝ) / 1000) ∧
    Irradiance.pdCoefs.flatten = ([-53, 529, -28, -71, 61, -19, -8, 588, -62, -60, 72, -22, 131, 770, -167, -26, 106, -32, 328, 471, -216, 69, -105, -28, 557, 241, -300,
      86, -85, -12, 861, -323, -355, 240, -467, -8, 1212, -1239, -444, 305, -797, 47, 1099, -1847, -365, 275, -1132, 124, 544, 157, -213,
      118, -1455, 292, 544, 157, -213, 118, -1455, 292, 0, 0, 0, 0, 0, 0, 0, 0, 0, 0, 0, 0, 0, 0, 0, 0, 0, 0] : List ℤ).map (fun n => (n : ℝ) / 1000) := by
  constructor <;> norm_num [Irradiance.pdKnots, Irradiance.pdCoefs]


end Pvlib.Props.Tables
end
