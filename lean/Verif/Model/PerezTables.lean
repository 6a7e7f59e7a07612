import Verif.Model.Irradiance

/-! # The Perez coefficient tables (generated by scripts/gen_perez.py from the source text) -/

noncomputable section
namespace Pvlib.Irradiance

/-- `coeffdict` of `_get_perez_coefficients`, pvlib/irradiance.py:3346-3445, times 10000 (all entries exact): for each name eight rows of
six numbers, F11 F12 F13 F21 F22 F23. -/
def perezCoeffs : List (String × List (List Int)) := [
  ("allsitescomposite1990",
   [[-80, 5880, -620, -600, 720, -220],
    [1300, 6830, -1510, -190, 660, -290],
    [3300, 4870, -2210, 550, -640, -260],
    [5680, 1870, -2950, 1090, -1520, -140],
    [8730, -3920, -3620, 2260, -4620, 10],
    [11320, -12370, -4120, 2880, -8230, 560],
    [10600, -16000, -3590, 2640, -11270, 1310],
    [6780, -3270, -2500, 1560, -13770, 2510]]),
  ("allsitescomposite1988",
   [[-180, 7050, -710, -580, 1020, -260],
    [1910, 6450, -1710, 120, 90, -270],
    [4400, 3780, -2560, 870, -1040, -250],
    [7560, -1210, -3460, 1790, -3210, -80],
    [9960, -6450, -4050, 2600, -5900, 170],
    [10980, -12900, -3930, 2690, -8320, 750],
    [9730, -11350, -3780, 1240, -2580, 1490],
    [6890, -4120, -2730, 1990, -16750, 2370]]),
  ("sandiacomposite1988",
   [[-1960, 10840, -60, -1140, 1800, -190],
    [2360, 5190, -1800, -110, 200, -380],
    [4540, 3210, -2550, 720, -980, -460],
    [8660, -3810, -3750, 2030, -4030, -490],
    [10260, -7110, -4260, 2730, -6020, -610],
    [9780, -9860, -3500, 2800, -9150, -240],
    [7480, -9130, -2360, 1730, -10450, 650],
    [3180, -7570, 1030, 620, -16980, 2360]]),
  ("usacomposite1988",
   [[-340, 6710, -590, -590, 860, -280],
    [2550, 4740, -1910, 180, -140, -330],
    [4270, 3490, -2450, 930, -1210, -390],
    [7560, -2130, -3280, 1750, -3040, -270],
    [10200, -8570, -3850, 2800, -6380, -190],
    [10500, -13440, -3480, 2800, -8930, 370],
    [9740, -15070, -3700, 1540, -5680, 1090],
    [7440, -18170, -2560, 2460, -26180, 2300]]),
  ("france1988",
   [[130, 7640, -1000, -580, 1270, -230],
    [950, 9200, -1520, 0, 510, -200],
    [4640, 4210, -2800, 640, -510, -20],
    [7590, -90, -3730, 2010, -3820, 100],
    [9760, -4000, -4360, 2710, -6380, 510],
    [11760, -12540, -4620, 2950, -9750, 1290],
    [11060, -15630, -3980, 3010, -14420, 2120],
    [9340, -15010, -2710, 4200, -29170, 2490]]),
  ("phoenix1988",
   [[-30, 7280, -970, -750, 1420, -430],
    [2790, 3540, -1760, 300, -550, -540],
    [4690, 1680, -2460, 480, -420, -570],
    [8560, -5190, -3400, 1760, -3800, -310],
    [9410, -6250, -3910, 1880, -3600, -490],
    [10560, -11340, -4100, 2810, -7940, -650],
    [9010, -21390, -2690, 1180, -6650, 460],
    [1070, 4810, 1430, -1110, -1370, 2340]]),
  ("elmonte1988",
   [[270, 7010, -1190, -580, 1070, -600],
    [1810, 6710, -1780, -790, 1940, -350],
    [4760, 4070, -2880, 540, -320, -550],
    [8750, -2180, -4030, 1870, -3090, -610],
    [11660, -10140, -4540, 2110, -4100, -440],
    [11430, -20640, -2910, 970, -3190, 530],
    [10940, -26320, -2590, 290, -4220, 1470],
    [1550, 17230, 1630, -1310, -190, 2770]]),
  ("osage1988",
   [[-3530, 14740, 570, -1750, 3120, 90],
    [3630, 2180, -2120, 190, -340, -590],
    [-310, 12620, -840, -820, 2310, -170],
    [6910, 390, -2950, 910, -1310, -350],
    [11820, -13500, -3210, 4080, -9850, -880],
    [7640, 190, -2030, 2170, -2940, -1030],
    [2190, 14120, 2440, 4710, -29880, 340],
    [35780, 222310, -107450, 24260, 48920, -56870]]),
  ("albuquerque1988",
   [[340, 5010, -940, -630, 1060, -440],
    [2290, 4670, -1560, -50, -190, -230],
    [4860, 2410, -2530, 530, -640, -220],
    [8740, -3930, -3970, 1810, -3270, -370],
    [11930, -12960, -5010, 2810, -6560, -450],
    [10560, -17580, -3740, 2260, -7590, 340],
    [9010, -47830, -1090, 630, -9700, 1960],
    [8510, -70550, -530, 600, -28330, 3300]]),
  ("capecanaveral1988",
   [[750, 5330, -1240, -670, 420, -200],
    [2950, 4970, -2180, -80, 30, -290],
    [5140, 810, -2610, 750, -1600, -290],
    [7470, -3290, -3250, 1810, -4160, -300],
    [9010, -8830, -2970, 1780, -4890, 80],
    [5910, -440, -1160, 2350, -9990, 980],
    [5370, -24020, 3200, 1690, -19710, 3100],
    [-8050, 45460, 10720, -2580, -9500, 7530]]),
  ("albany1988",
   [[120, 5540, -760, -520, 840, -290],
    [2670, 4370, -1940, 160, 220, -360],
    [4200, 3360, -2370, 740, -520, -320],
    [6380, -10, -2810, 1380, -1890, -120],
    [10190, -10270, -3420, 2710, -6280, 140],
    [11490, -19400, -3310, 3220, -10970, 800],
    [14340, -39940, -4920, 4530, -23760, 1170],
    [10070, -22920, -4820, 3900, -33680, 2290]])]

/-- `_get_perez_coefficients`, pvlib/irradiance.py:3295-3452: the table of that name (`none`: KeyError); columns 0-2 are F1, 3-5 F2. -/
def perezShipped (perezmodel : String) : Option PerezTable :=
  (perezCoeffs.lookup perezmodel).map fun array =>
    ⟨fun i j => ((array.getD i []).getD j 0 : Int) / 10000, fun i j => ((array.getD i []).getD (3 + j) 0 : Int) / 10000⟩

end Pvlib.Irradiance
end
