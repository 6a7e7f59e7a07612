/-! # The DIRINT coefficient table (generated by scripts/gen_dirint.py from the source text)

Entries are in units of 1e-6, all exact: `_get_dirint_coeffs`, pvlib/irradiance.py:3455-3795. -/

namespace Pvlib.Irradiance

/-- `_get_dirint_coeffs()` (pvlib/irradiance.py:3455-3795), times 1e6: kt' bin, zenith bin,
delta kt' bin, w bin. -/
def dirintTableMicro : List (List (List (List Nat))) :=
 [  [
   [[385230, 385230, 385230, 462880, 317440],
    [338390, 338390, 221270, 316730, 503650],
    [235680, 235680, 241280, 157830, 269440],
    [830130, 830130, 171970, 841070, 457370],
    [548010, 548010, 478000, 966880, 1036370],
    [548010, 548010, 1000000, 3012370, 1976540],
    [582690, 582690, 229720, 892710, 569950]],
   [[131280, 131280, 385460, 511070, 127940],
    [223710, 223710, 193560, 304560, 193940],
    [229970, 229970, 275020, 312730, 244610],
    [90100, 184580, 260500, 687480, 579440],
    [131530, 131530, 370190, 1380350, 1052270],
    [1116250, 1116250, 928030, 3525490, 2316920],
    [90100, 237000, 300040, 812470, 664970]],
   [[587510, 130000, 400000, 537210, 832490],
    [306210, 129830, 204460, 500000, 681640],
    [224020, 260620, 334080, 501040, 350470],
    [421540, 753970, 750660, 3706840, 983790],
    [706680, 373530, 1245670, 864860, 1992630],
    [4864400, 117390, 265180, 359180, 3310820],
    [392080, 493290, 651560, 1932780, 898730]],
   [[126970, 126970, 126970, 126970, 126970],
    [810820, 810820, 810820, 810820, 810820],
    [3241680, 2500000, 2291440, 2291440, 2291440],
    [4000000, 3000000, 2000000, 975430, 1965570],
    [12494170, 12494170, 8000000, 5083520, 8792390],
    [21744240, 21744240, 21744240, 21744240, 21744240],
    [3241680, 12494170, 1620760, 1375250, 2331620]],
   [[126970, 126970, 126970, 126970, 126970],
    [810820, 810820, 810820, 810820, 810820],
    [3241680, 2500000, 2291440, 2291440, 2291440],
    [4000000, 3000000, 2000000, 975430, 1965570],
    [12494170, 12494170, 8000000, 5083520, 8792390],
    [21744240, 21744240, 21744240, 21744240, 21744240],
    [3241680, 12494170, 1620760, 1375250, 2331620]],
   [[126970, 126970, 126970, 126970, 126970],
    [810820, 810820, 810820, 810820, 810820],
    [3241680, 2500000, 2291440, 2291440, 2291440],
    [4000000, 3000000, 2000000, 975430, 1965570],
    [12494170, 12494170, 8000000, 5083520, 8792390],
    [21744240, 21744240, 21744240, 21744240, 21744240],
    [3241680, 12494170, 1620760, 1375250, 2331620]]],
  [
   [[337440, 337440, 969110, 1097190, 1116080],
    [337440, 337440, 969110, 1116030, 623900],
    [337440, 337440, 1530590, 1024420, 908480],
    [584040, 584040, 847250, 914940, 1289300],
    [337440, 337440, 310240, 1435020, 1852830],
    [337440, 337440, 1015010, 1097190, 2117230],
    [337440, 337440, 969110, 1145730, 1476400]],
   [[300000, 300000, 700000, 1100000, 796940],
    [219870, 219870, 526530, 809610, 649300],
    [386650, 386650, 119320, 576120, 685460],
    [746730, 399830, 470970, 986530, 785370],
    [575420, 936700, 1649200, 1495840, 1335590],
    [1319670, 4002570, 1276390, 2644550, 2518670],
    [665190, 678910, 1012360, 1199940, 986580]],
   [[378870, 974060, 500000, 491880, 665290],
    [105210, 263470, 407040, 553460, 582590],
    [312900, 345240, 1144180, 854790, 612280],
    [119070, 365120, 560520, 793720, 802600],
    [781610, 837390, 1270420, 1537980, 1292950],
    [1152290, 1152290, 1492080, 1245370, 2177100],
    [424660, 529550, 966910, 1033460, 958730]],
   [[310590, 714410, 252450, 500000, 607600],
    [975190, 363420, 500000, 400000, 502800],
    [175580, 196250, 476360, 1072470, 490510],
    [719280, 698620, 657770, 1190840, 681110],
    [426240, 1464840, 678550, 1157730, 978430],
    [2501120, 1789130, 1387090, 2394180, 2394180],
    [491640, 677610, 685610, 1082400, 735410]],
   [[597000, 500000, 300000, 310050, 413510],
    [314790, 336310, 400000, 400000, 442460],
    [166510, 460440, 552570, 1000000, 461610],
    [401020, 559110, 403630, 1016710, 671490],
    [400360, 750830, 842640, 1802600, 1023830],
    [3315300, 1510380, 2443650, 1638820, 2133990],
    [530790, 745850, 693050, 1458040, 804500]],
   [[597000, 500000, 300000, 310050, 800920],
    [314790, 336310, 400000, 400000, 237040],
    [166510, 460440, 552570, 1000000, 581990],
    [401020, 559110, 403630, 1016710, 898570],
    [400360, 750830, 842640, 1802600, 3400390],
    [3315300, 1510380, 2443650, 1638820, 2508780],
    [204340, 1157740, 2003080, 2622080, 1409380]]],
  [
   [[1242210, 1242210, 1242210, 1242210, 1242210],
    [56980, 56980, 656990, 656990, 925160],
    [89090, 89090, 1040430, 1232480, 1205300],
    [1053850, 1053850, 1399690, 1084640, 1233340],
    [1151540, 1151540, 1118290, 1531640, 1411840],
    [1494980, 1494980, 1700000, 1800810, 1671600],
    [1018450, 1018450, 1153600, 1321890, 1294670]],
   [[700000, 700000, 1023460, 700000, 945830],
    [886300, 886300, 1333620, 800000, 1066620],
    [902180, 902180, 954330, 1126690, 1097310],
    [1095300, 1075060, 1176490, 1139470, 1096110],
    [1201660, 1201660, 1438200, 1256280, 1198060],
    [1525850, 1525850, 1869160, 1985410, 1911590],
    [1288220, 1082810, 1286370, 1166170, 1119330]],
   [[600000, 1029910, 859890, 550000, 813600],
    [604450, 1029910, 859890, 656700, 928840],
    [455850, 750580, 804930, 823000, 911000],
    [526580, 932310, 908620, 983520, 988090],
    [1036110, 1100690, 848380, 1035270, 1042380],
    [1048440, 1652720, 900000, 2350410, 1082950],
    [817410, 976160, 861300, 974780, 1004580]],
   [[782110, 564280, 600000, 600000, 665740],
    [894480, 680730, 541990, 800000, 669140],
    [487460, 818950, 841830, 872540, 709040],
    [709310, 872780, 908480, 953290, 844350],
    [863920, 947770, 876220, 1078750, 936910],
    [1280350, 866720, 769790, 1078750, 975130],
    [725420, 869970, 868810, 951190, 829220]],
   [[791750, 654040, 483170, 409000, 597180],
    [566140, 948990, 971820, 653570, 718550],
    [648710, 637730, 870510, 860600, 694300],
    [637630, 767610, 925670, 990310, 847670],
    [736380, 946060, 1117590, 1029340, 947020],
    [1180970, 850000, 1050000, 950000, 888580],
    [700560, 801440, 961970, 906140, 823880]],
   [[500000, 500000, 586770, 470550, 629790],
    [500000, 500000, 1056220, 1260140, 658140],
    [500000, 500000, 631830, 842620, 582780],
    [554710, 734730, 985820, 915640, 898260],
    [712510, 1205990, 909510, 1078260, 885610],
    [1899260, 1559710, 1000000, 1150000, 1120390],
    [653880, 793120, 903320, 944070, 796130]]],
  [
   [[1000000, 1000000, 1050000, 1170380, 1178090],
    [960580, 960580, 1059530, 1179030, 1131690],
    [871470, 871470, 995860, 1141910, 1114600],
    [1201590, 1201590, 993610, 1109380, 1126320],
    [1065010, 1065010, 828660, 939970, 1017930],
    [1065010, 1065010, 623690, 1119620, 1132260],
    [1071570, 1071570, 958070, 1114130, 1127110]],
   [[950000, 973390, 852520, 1092200, 1096590],
    [804120, 913870, 980990, 1094580, 1042420],
    [737540, 935970, 999940, 1056490, 1050060],
    [1032980, 1034540, 968460, 1032080, 1015780],
    [900000, 977210, 945960, 1008840, 969960],
    [600000, 750000, 750000, 844710, 899100],
    [926800, 965030, 968520, 1044910, 1032310]],
   [[850000, 1029710, 961100, 1055670, 1009700],
    [818530, 960010, 996450, 1081970, 1036470],
    [765380, 953500, 948260, 1052110, 1000140],
    [775610, 909610, 927800, 987800, 952100],
    [1000990, 881880, 875950, 949100, 893690],
    [902370, 875960, 807990, 942410, 917920],
    [856580, 928270, 946820, 1032260, 972990]],
   [[750000, 857930, 983800, 1056540, 980240],
    [750000, 987010, 1013730, 1133780, 1038250],
    [800000, 947380, 1012380, 1091270, 999840],
    [800000, 914550, 908570, 999190, 915230],
    [778540, 800590, 799070, 902180, 851560],
    [680190, 317410, 507680, 388910, 646710],
    [794920, 912780, 960830, 1057110, 947950]],
   [[750000, 833890, 867530, 1059890, 932840],
    [979700, 971470, 995510, 1068490, 1030150],
    [858850, 987920, 1043220, 1108700, 1044900],
    [802400, 955110, 911660, 1045070, 944470],
    [884890, 766210, 885390, 859070, 818190],
    [615680, 700000, 850000, 624620, 669300],
    [835570, 946150, 977090, 1049350, 979970]],
   [[689220, 809600, 900000, 789500, 853990],
    [854660, 852840, 938200, 923110, 955010],
    [938600, 932980, 1010390, 1043950, 1041640],
    [843620, 981300, 951590, 946100, 966330],
    [694740, 814690, 572650, 400000, 726830],
    [211370, 671780, 416340, 297290, 498050],
    [843540, 882330, 911760, 898420, 960210]]],
  [
   [[1054880, 1075210, 1068460, 1153370, 1069220],
    [1000000, 1062220, 1013470, 1088170, 1046200],
    [885090, 993530, 942590, 1054990, 1012740],
    [920000, 950000, 978720, 1020280, 984440],
    [850000, 908500, 839940, 985570, 962180],
    [800000, 800000, 810080, 950000, 961550],
    [1038590, 1063200, 1034440, 1112780, 1037800]],
   [[1017610, 1028360, 1058960, 1133180, 1045620],
    [920000, 998970, 1033590, 1089030, 1022060],
    [912370, 949930, 979770, 1020420, 981770],
    [847160, 935300, 930540, 955050, 946560],
    [880260, 867110, 874130, 972650, 883420],
    [627150, 627150, 700000, 774070, 845130],
    [973700, 1006240, 1026190, 1071960, 1017240]],
   [[1028710, 1017570, 1025900, 1081790, 1024240],
    [924980, 985500, 1014100, 1092210, 999610],
    [828570, 934920, 994950, 1024590, 949710],
    [900810, 901330, 928830, 979570, 913100],
    [761030, 845150, 805360, 936790, 853460],
    [626400, 546750, 730500, 850000, 689050],
    [957630, 985480, 991790, 1050220, 987900]],
   [[992730, 993880, 1017150, 1059120, 1017450],
    [975610, 987160, 1026820, 1075440, 1007250],
    [871090, 933190, 974690, 979840, 952730],
    [828750, 868090, 834920, 905510, 871530],
    [781540, 782470, 767910, 764140, 795890],
    [743460, 693390, 514870, 630150, 715660],
    [934760, 957870, 959640, 972510, 981640]],
   [[965840, 941240, 987100, 1022540, 1011160],
    [988630, 994770, 976590, 950000, 1034840],
    [958200, 1018080, 974480, 920000, 989870],
    [811720, 869090, 812020, 850000, 821050],
    [682030, 679480, 632450, 746580, 738550],
    [668290, 445860, 500000, 678920, 696510],
    [926940, 953350, 959050, 876210, 991490]],
   [[948940, 997760, 850000, 826520, 998470],
    [1017860, 970000, 850000, 700000, 988560],
    [1000000, 950000, 850000, 606240, 947260],
    [1000000, 746140, 751740, 598390, 725230],
    [922210, 500000, 376800, 517110, 548630],
    [500000, 450000, 429970, 404490, 539940],
    [960430, 881630, 775640, 596350, 937680]]],
  [
   [[1030000, 1040000, 1000000, 1000000, 1049510],
    [1050000, 990000, 990000, 950000, 996530],
    [1050000, 990000, 990000, 820000, 971940],
    [1050000, 790000, 880000, 820000, 951840],
    [1000000, 530000, 440000, 710000, 928730],
    [540000, 470000, 500000, 550000, 773950],
    [1038270, 920180, 910930, 821140, 1034560]],
   [[1041020, 997520, 961600, 1000000, 1035780],
    [948030, 980000, 900000, 950360, 977460],
    [950000, 977250, 869270, 800000, 951680],
    [951870, 850000, 748770, 700000, 883850],
    [900000, 823190, 727450, 600000, 839870],
    [850000, 805020, 692310, 500000, 788410],
    [1010090, 895270, 773030, 816280, 1011680]],
   [[1022450, 1004600, 983650, 1000000, 1032940],
    [943960, 999240, 983920, 905990, 978150],
    [936240, 946480, 850000, 850000, 930320],
    [816420, 885000, 644950, 817650, 865310],
    [742960, 765690, 561520, 700000, 827140],
    [643870, 596710, 474460, 600000, 651200],
    [971740, 940560, 714880, 864380, 1001650]],
   [[995260, 977010, 1000000, 1000000, 1035250],
    [939810, 975250, 939980, 950000, 982550],
    [876870, 879440, 850000, 900000, 917810],
    [873480, 873450, 751470, 850000, 863040],
    [761470, 702360, 638770, 750000, 783120],
    [734080, 650000, 600000, 650000, 715660],
    [942160, 919100, 770340, 731170, 995180]],
   [[952560, 916780, 920000, 900000, 1005880],
    [928620, 994420, 900000, 900000, 983720],
    [913070, 850000, 850000, 800000, 924280],
    [868090, 807170, 823550, 600000, 844520],
    [769570, 719870, 650000, 550000, 733500],
    [580250, 650000, 600000, 500000, 628850],
    [904770, 852650, 708370, 493730, 949030]],
   [[911970, 800000, 800000, 800000, 956320],
    [912620, 682610, 750000, 700000, 950110],
    [653450, 659330, 700000, 600000, 856110],
    [648440, 600000, 641120, 500000, 695780],
    [570000, 550000, 598800, 400000, 560150],
    [475230, 500000, 518640, 339970, 520230],
    [743440, 592190, 603060, 316930, 794390]]]]

end Pvlib.Irradiance
