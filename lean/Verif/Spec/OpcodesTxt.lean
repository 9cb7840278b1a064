import Verif.Py

/-!
The committed file `h800/opcodes.txt`, line by line (1890 lines), in chunks of 63.
-/

namespace H800.Spec

/-- opcodes.txt 1-63 -/
def opcodesTxt0 : List Str :=
  [py "0o0000 PR", py "0o0001 FBAE", py "0o0003 DM", py "0o0005 BD", py "0o0006 SS", py "0o0007 S",
   py "0o0011 FBSE", py "0o0013 BM", py "0o0015 FFN", py "0o0016 EX", py "0o0020 MT", py "0o0025 DD",
   py "0o0030 FLN", py "0o0035 FCON", py "0o0041 DA", py "0o0042 RW", py "0o0044 TS", py "0o0045 SM",
   py "0o0046 PRD", py "0o0050 NN", py "0o0051 BA", py "0o0052 RB", py "0o0054 NA", py "0o0055 WA",
   py "0o0056 WF", py "0o0060 TX", py "0o0061 DS", py "0o0064 CP", py "0o0065 HA", py "0o0070 LN",
   py "0o0071 BS", py "0o0072 RF", py "0o0074 LA", py "0o0075 WD", py "0o0100 PR", py "0o0101 FBAE",
   py "0o0103 DM", py "0o0105 BD", py "0o0106 SS", py "0o0111 FBSE", py "0o0113 BM", py "0o0115 FFN",
   py "0o0116 EX", py "0o0120 MT", py "0o0125 DD", py "0o0130 FLN", py "0o0135 FCON", py "0o0141 DA",
   py "0o0142 RW", py "0o0144 TS", py "0o0145 SM", py "0o0146 PRD", py "0o0150 NN", py "0o0151 BA",
   py "0o0152 RB", py "0o0154 NA", py "0o0155 WA", py "0o0156 WF", py "0o0160 TX", py "0o0161 DS",
   py "0o0164 CP", py "0o0165 HA", py "0o0170 LN"]

/-- opcodes.txt 64-126 -/
def opcodesTxt1 : List Str :=
  [py "0o0171 BS", py "0o0172 RF", py "0o0174 LA", py "0o0175 WD", py "0o0200 PR", py "0o0201 FBAE",
   py "0o0203 DM", py "0o0205 BD", py "0o0206 SS", py "0o0211 FBSE", py "0o0213 BM", py "0o0215 FFN",
   py "0o0216 EX", py "0o0220 MT", py "0o0225 DD", py "0o0230 FLN", py "0o0235 FCON", py "0o0241 DA",
   py "0o0242 RW", py "0o0244 TS", py "0o0245 SM", py "0o0246 PRD", py "0o0250 NN", py "0o0251 BA",
   py "0o0252 RB", py "0o0254 NA", py "0o0255 WA", py "0o0256 WF", py "0o0260 TX", py "0o0261 DS",
   py "0o0264 CP", py "0o0265 HA", py "0o0270 LN", py "0o0271 BS", py "0o0272 RF", py "0o0274 LA",
   py "0o0275 WD", py "0o0300 PR", py "0o0301 FBAE", py "0o0303 DM", py "0o0305 BD", py "0o0306 SS",
   py "0o0311 FBSE", py "0o0313 BM", py "0o0315 FFN", py "0o0316 EX", py "0o0320 MT", py "0o0325 DD",
   py "0o0330 FLN", py "0o0335 FCON", py "0o0341 DA", py "0o0342 RW", py "0o0344 TS", py "0o0345 SM",
   py "0o0346 PRD", py "0o0350 NN", py "0o0351 BA", py "0o0352 RB", py "0o0354 NA", py "0o0355 WA",
   py "0o0356 WF", py "0o0360 TX", py "0o0361 DS"]

/-- opcodes.txt 127-189 -/
def opcodesTxt2 : List Str :=
  [py "0o0364 CP", py "0o0365 HA", py "0o0370 LN", py "0o0371 BS", py "0o0372 RF", py "0o0374 LA",
   py "0o0375 WD", py "0o0400 PR", py "0o0401 FBAE", py "0o0403 DM", py "0o0405 BD", py "0o0406 SS",
   py "0o0411 FBSE", py "0o0413 BM", py "0o0415 FFN", py "0o0416 EX", py "0o0420 MT", py "0o0425 DD",
   py "0o0430 FLN", py "0o0435 FCON", py "0o0441 DA", py "0o0442 RW", py "0o0444 TS", py "0o0445 SM",
   py "0o0446 PRD", py "0o0450 NN", py "0o0451 BA", py "0o0452 RB", py "0o0454 NA", py "0o0455 WA",
   py "0o0456 WF", py "0o0460 TX", py "0o0461 DS", py "0o0464 CP", py "0o0465 HA", py "0o0470 LN",
   py "0o0471 BS", py "0o0472 RF", py "0o0474 LA", py "0o0475 WD", py "0o0500 PR", py "0o0501 FBAE",
   py "0o0503 DM", py "0o0505 BD", py "0o0506 SS", py "0o0511 FBSE", py "0o0513 BM", py "0o0515 FFN",
   py "0o0516 EX", py "0o0520 MT", py "0o0525 DD", py "0o0530 FLN", py "0o0535 FCON", py "0o0541 DA",
   py "0o0542 RW", py "0o0544 TS", py "0o0545 SM", py "0o0546 PRD", py "0o0550 NN", py "0o0551 BA",
   py "0o0552 RB", py "0o0554 NA", py "0o0555 WA"]

/-- opcodes.txt 190-252 -/
def opcodesTxt3 : List Str :=
  [py "0o0556 WF", py "0o0560 TX", py "0o0561 DS", py "0o0564 CP", py "0o0565 HA", py "0o0570 LN",
   py "0o0571 BS", py "0o0572 RF", py "0o0574 LA", py "0o0575 WD", py "0o0600 PR", py "0o0601 FBAE",
   py "0o0603 DM", py "0o0605 BD", py "0o0606 SS", py "0o0611 FBSE", py "0o0613 BM", py "0o0615 FFN",
   py "0o0616 EX", py "0o0620 MT", py "0o0625 DD", py "0o0630 FLN", py "0o0635 FCON", py "0o0641 DA",
   py "0o0642 RW", py "0o0644 TS", py "0o0645 SM", py "0o0646 PRD", py "0o0650 NN", py "0o0651 BA",
   py "0o0652 RB", py "0o0654 NA", py "0o0655 WA", py "0o0656 WF", py "0o0660 TX", py "0o0661 DS",
   py "0o0664 CP", py "0o0665 HA", py "0o0670 LN", py "0o0671 BS", py "0o0672 RF", py "0o0674 LA",
   py "0o0675 WD", py "0o0700 PR", py "0o0701 FBAE", py "0o0703 DM", py "0o0705 BD", py "0o0706 SS",
   py "0o0711 FBSE", py "0o0713 BM", py "0o0715 FFN", py "0o0716 EX", py "0o0720 MT", py "0o0725 DD",
   py "0o0730 FLN", py "0o0735 FCON", py "0o0741 DA", py "0o0742 RW", py "0o0744 TS", py "0o0745 SM",
   py "0o0746 PRD", py "0o0750 NN", py "0o0751 BA"]

/-- opcodes.txt 253-315 -/
def opcodesTxt4 : List Str :=
  [py "0o0752 RB", py "0o0754 NA", py "0o0755 WA", py "0o0756 WF", py "0o0760 TX", py "0o0761 DS",
   py "0o0764 CP", py "0o0765 HA", py "0o0770 LN", py "0o0771 BS", py "0o0772 RF", py "0o0774 LA",
   py "0o0775 WD", py "0o1001 FBA", py "0o1005 FBD", py "0o1010 CC", py "0o1011 FBS", py "0o1020 TN",
   py "0o1021 FDA", py "0o1025 FDD", py "0o1030 IT", py "0o1031 FDS", py "0o1041 DA", py "0o1042 RW",
   py "0o1044 TS", py "0o1045 SM", py "0o1050 NN", py "0o1051 BA", py "0o1052 RB", py "0o1054 NA",
   py "0o1055 WA", py "0o1056 WF", py "0o1060 TX", py "0o1061 DS", py "0o1064 CP", py "0o1065 HA",
   py "0o1070 LN", py "0o1071 BS", py "0o1072 RF", py "0o1074 LA", py "0o1075 WD", py "0o1101 FBA",
   py "0o1105 FBD", py "0o1110 CC", py "0o1111 FBS", py "0o1120 TN", py "0o1121 FDA", py "0o1125 FDD",
   py "0o1130 IT", py "0o1131 FDS", py "0o1141 DA", py "0o1142 RW", py "0o1144 TS", py "0o1145 SM",
   py "0o1150 NN", py "0o1151 BA", py "0o1152 RB", py "0o1154 NA", py "0o1155 WA", py "0o1156 WF",
   py "0o1160 TX", py "0o1161 DS", py "0o1164 CP"]

/-- opcodes.txt 316-378 -/
def opcodesTxt5 : List Str :=
  [py "0o1165 HA", py "0o1170 LN", py "0o1171 BS", py "0o1172 RF", py "0o1174 LA", py "0o1175 WD",
   py "0o1201 FBA", py "0o1205 FBD", py "0o1210 CC", py "0o1211 FBS", py "0o1220 TN", py "0o1221 FDA",
   py "0o1225 FDD", py "0o1230 IT", py "0o1231 FDS", py "0o1241 DA", py "0o1242 RW", py "0o1244 TS",
   py "0o1245 SM", py "0o1250 NN", py "0o1251 BA", py "0o1252 RB", py "0o1254 NA", py "0o1255 WA",
   py "0o1256 WF", py "0o1260 TX", py "0o1261 DS", py "0o1264 CP", py "0o1265 HA", py "0o1270 LN",
   py "0o1271 BS", py "0o1272 RF", py "0o1274 LA", py "0o1275 WD", py "0o1301 FBA", py "0o1305 FBD",
   py "0o1310 CC", py "0o1311 FBS", py "0o1320 TN", py "0o1321 FDA", py "0o1325 FDD", py "0o1330 IT",
   py "0o1331 FDS", py "0o1341 DA", py "0o1342 RW", py "0o1344 TS", py "0o1345 SM", py "0o1350 NN",
   py "0o1351 BA", py "0o1352 RB", py "0o1354 NA", py "0o1355 WA", py "0o1356 WF", py "0o1360 TX",
   py "0o1361 DS", py "0o1364 CP", py "0o1365 HA", py "0o1370 LN", py "0o1371 BS", py "0o1372 RF",
   py "0o1374 LA", py "0o1375 WD", py "0o1401 FBA"]

/-- opcodes.txt 379-441 -/
def opcodesTxt6 : List Str :=
  [py "0o1405 FBD", py "0o1410 CC", py "0o1411 FBS", py "0o1420 TN", py "0o1421 FDA", py "0o1425 FDD",
   py "0o1430 IT", py "0o1431 FDS", py "0o1441 DA", py "0o1442 RW", py "0o1444 TS", py "0o1445 SM",
   py "0o1450 NN", py "0o1451 BA", py "0o1452 RB", py "0o1454 NA", py "0o1455 WA", py "0o1456 WF",
   py "0o1460 TX", py "0o1461 DS", py "0o1464 CP", py "0o1465 HA", py "0o1470 LN", py "0o1471 BS",
   py "0o1472 RF", py "0o1474 LA", py "0o1475 WD", py "0o1501 FBA", py "0o1505 FBD", py "0o1510 CC",
   py "0o1511 FBS", py "0o1520 TN", py "0o1521 FDA", py "0o1525 FDD", py "0o1530 IT", py "0o1531 FDS",
   py "0o1541 DA", py "0o1542 RW", py "0o1544 TS", py "0o1545 SM", py "0o1550 NN", py "0o1551 BA",
   py "0o1552 RB", py "0o1554 NA", py "0o1555 WA", py "0o1556 WF", py "0o1560 TX", py "0o1561 DS",
   py "0o1564 CP", py "0o1565 HA", py "0o1570 LN", py "0o1571 BS", py "0o1572 RF", py "0o1574 LA",
   py "0o1575 WD", py "0o1601 FBA", py "0o1605 FBD", py "0o1610 CC", py "0o1611 FBS", py "0o1620 TN",
   py "0o1621 FDA", py "0o1625 FDD", py "0o1630 IT"]

/-- opcodes.txt 442-504 -/
def opcodesTxt7 : List Str :=
  [py "0o1631 FDS", py "0o1641 DA", py "0o1642 RW", py "0o1644 TS", py "0o1645 SM", py "0o1650 NN",
   py "0o1651 BA", py "0o1652 RB", py "0o1654 NA", py "0o1655 WA", py "0o1656 WF", py "0o1660 TX",
   py "0o1661 DS", py "0o1664 CP", py "0o1665 HA", py "0o1670 LN", py "0o1671 BS", py "0o1672 RF",
   py "0o1674 LA", py "0o1675 WD", py "0o1701 FBA", py "0o1705 FBD", py "0o1710 CC", py "0o1711 FBS",
   py "0o1720 TN", py "0o1721 FDA", py "0o1725 FDD", py "0o1730 IT", py "0o1731 FDS", py "0o1741 DA",
   py "0o1742 RW", py "0o1744 TS", py "0o1745 SM", py "0o1750 NN", py "0o1751 BA", py "0o1752 RB",
   py "0o1754 NA", py "0o1755 WA", py "0o1756 WF", py "0o1760 TX", py "0o1761 DS", py "0o1764 CP",
   py "0o1765 HA", py "0o1770 LN", py "0o1771 BS", py "0o1772 RF", py "0o1774 LA", py "0o1775 WD",
   py "0o2000 MPC", py "0o2002 SPS", py "0o2003 DT", py "0o2006 SWS", py "0o2012 SPE", py "0o2013 BT",
   py "0o2014 FNN", py "0o2016 SWE", py "0o2026 SSL", py "0o2041 DA", py "0o2042 RW", py "0o2044 TS",
   py "0o2045 SM", py "0o2050 NN", py "0o2051 BA"]

/-- opcodes.txt 505-567 -/
def opcodesTxt8 : List Str :=
  [py "0o2052 RB", py "0o2054 NA", py "0o2055 WA", py "0o2056 WF", py "0o2060 TX", py "0o2061 DS",
   py "0o2064 CP", py "0o2065 HA", py "0o2070 LN", py "0o2071 BS", py "0o2072 RF", py "0o2074 LA",
   py "0o2075 WD", py "0o2100 MPC", py "0o2102 SPS", py "0o2103 DT", py "0o2106 SWS", py "0o2112 SPE",
   py "0o2113 BT", py "0o2114 FNN", py "0o2116 SWE", py "0o2126 SSL", py "0o2141 DA", py "0o2142 RW",
   py "0o2144 TS", py "0o2145 SM", py "0o2150 NN", py "0o2151 BA", py "0o2152 RB", py "0o2154 NA",
   py "0o2155 WA", py "0o2156 WF", py "0o2160 TX", py "0o2161 DS", py "0o2164 CP", py "0o2165 HA",
   py "0o2170 LN", py "0o2171 BS", py "0o2172 RF", py "0o2174 LA", py "0o2175 WD", py "0o2200 MPC",
   py "0o2202 SPS", py "0o2203 DT", py "0o2206 SWS", py "0o2212 SPE", py "0o2213 BT", py "0o2214 FNN",
   py "0o2216 SWE", py "0o2226 SSL", py "0o2241 DA", py "0o2242 RW", py "0o2244 TS", py "0o2245 SM",
   py "0o2250 NN", py "0o2251 BA", py "0o2252 RB", py "0o2254 NA", py "0o2255 WA", py "0o2256 WF",
   py "0o2260 TX", py "0o2261 DS", py "0o2264 CP"]

/-- opcodes.txt 568-630 -/
def opcodesTxt9 : List Str :=
  [py "0o2265 HA", py "0o2270 LN", py "0o2271 BS", py "0o2272 RF", py "0o2274 LA", py "0o2275 WD",
   py "0o2300 MPC", py "0o2302 SPS", py "0o2303 DT", py "0o2306 SWS", py "0o2312 SPE", py "0o2313 BT",
   py "0o2314 FNN", py "0o2316 SWE", py "0o2326 SSL", py "0o2341 DA", py "0o2342 RW", py "0o2344 TS",
   py "0o2345 SM", py "0o2350 NN", py "0o2351 BA", py "0o2352 RB", py "0o2354 NA", py "0o2355 WA",
   py "0o2356 WF", py "0o2360 TX", py "0o2361 DS", py "0o2364 CP", py "0o2365 HA", py "0o2370 LN",
   py "0o2371 BS", py "0o2372 RF", py "0o2374 LA", py "0o2375 WD", py "0o2400 MPC", py "0o2402 SPS",
   py "0o2403 DT", py "0o2406 SWS", py "0o2412 SPE", py "0o2413 BT", py "0o2414 FNN", py "0o2416 SWE",
   py "0o2426 SSL", py "0o2441 DA", py "0o2442 RW", py "0o2444 TS", py "0o2445 SM", py "0o2450 NN",
   py "0o2451 BA", py "0o2452 RB", py "0o2454 NA", py "0o2455 WA", py "0o2456 WF", py "0o2460 TX",
   py "0o2461 DS", py "0o2464 CP", py "0o2465 HA", py "0o2470 LN", py "0o2471 BS", py "0o2472 RF",
   py "0o2474 LA", py "0o2475 WD", py "0o2500 MPC"]

/-- opcodes.txt 631-693 -/
def opcodesTxt10 : List Str :=
  [py "0o2502 SPS", py "0o2503 DT", py "0o2506 SWS", py "0o2512 SPE", py "0o2513 BT", py "0o2514 FNN",
   py "0o2516 SWE", py "0o2526 SSL", py "0o2541 DA", py "0o2542 RW", py "0o2544 TS", py "0o2545 SM",
   py "0o2550 NN", py "0o2551 BA", py "0o2552 RB", py "0o2554 NA", py "0o2555 WA", py "0o2556 WF",
   py "0o2560 TX", py "0o2561 DS", py "0o2564 CP", py "0o2565 HA", py "0o2570 LN", py "0o2571 BS",
   py "0o2572 RF", py "0o2574 LA", py "0o2575 WD", py "0o2600 MPC", py "0o2602 SPS", py "0o2603 DT",
   py "0o2606 SWS", py "0o2612 SPE", py "0o2613 BT", py "0o2614 FNN", py "0o2616 SWE", py "0o2626 SSL",
   py "0o2641 DA", py "0o2642 RW", py "0o2644 TS", py "0o2645 SM", py "0o2650 NN", py "0o2651 BA",
   py "0o2652 RB", py "0o2654 NA", py "0o2655 WA", py "0o2656 WF", py "0o2660 TX", py "0o2661 DS",
   py "0o2664 CP", py "0o2665 HA", py "0o2670 LN", py "0o2671 BS", py "0o2672 RF", py "0o2674 LA",
   py "0o2675 WD", py "0o2700 MPC", py "0o2702 SPS", py "0o2703 DT", py "0o2706 SWS", py "0o2712 SPE",
   py "0o2713 BT", py "0o2714 FNN", py "0o2716 SWE"]

/-- opcodes.txt 694-756 -/
def opcodesTxt11 : List Str :=
  [py "0o2726 SSL", py "0o2741 DA", py "0o2742 RW", py "0o2744 TS", py "0o2745 SM", py "0o2750 NN",
   py "0o2751 BA", py "0o2752 RB", py "0o2754 NA", py "0o2755 WA", py "0o2756 WF", py "0o2760 TX",
   py "0o2761 DS", py "0o2764 CP", py "0o2765 HA", py "0o2770 LN", py "0o2771 BS", py "0o2772 RF",
   py "0o2774 LA", py "0o2775 WD", py "0o3001 FBAU", py "0o3005 FBM", py "0o3011 FBSU", py "0o3013 EBA",
   py "0o3015 ULD", py "0o3021 FDAU", py "0o3025 FDM", py "0o3030 RT", py "0o3031 FDSU", py "0o3033 EBS",
   py "0o3041 DA", py "0o3042 RW", py "0o3044 TS", py "0o3045 SM", py "0o3050 NN", py "0o3051 BA",
   py "0o3052 RB", py "0o3054 NA", py "0o3055 WA", py "0o3056 WF", py "0o3060 TX", py "0o3061 DS",
   py "0o3064 CP", py "0o3065 HA", py "0o3070 LN", py "0o3071 BS", py "0o3072 RF", py "0o3074 LA",
   py "0o3075 WD", py "0o3101 FBAU", py "0o3105 FBM", py "0o3111 FBSU", py "0o3113 EBA", py "0o3115 ULD",
   py "0o3121 FDAU", py "0o3125 FDM", py "0o3130 RT", py "0o3131 FDSU", py "0o3133 EBS", py "0o3141 DA",
   py "0o3142 RW", py "0o3144 TS", py "0o3145 SM"]

/-- opcodes.txt 757-819 -/
def opcodesTxt12 : List Str :=
  [py "0o3150 NN", py "0o3151 BA", py "0o3152 RB", py "0o3154 NA", py "0o3155 WA", py "0o3156 WF",
   py "0o3160 TX", py "0o3161 DS", py "0o3164 CP", py "0o3165 HA", py "0o3170 LN", py "0o3171 BS",
   py "0o3172 RF", py "0o3174 LA", py "0o3175 WD", py "0o3201 FBAU", py "0o3205 FBM", py "0o3211 FBSU",
   py "0o3213 EBA", py "0o3215 ULD", py "0o3221 FDAU", py "0o3225 FDM", py "0o3230 RT", py "0o3231 FDSU",
   py "0o3233 EBS", py "0o3241 DA", py "0o3242 RW", py "0o3244 TS", py "0o3245 SM", py "0o3250 NN",
   py "0o3251 BA", py "0o3252 RB", py "0o3254 NA", py "0o3255 WA", py "0o3256 WF", py "0o3260 TX",
   py "0o3261 DS", py "0o3264 CP", py "0o3265 HA", py "0o3270 LN", py "0o3271 BS", py "0o3272 RF",
   py "0o3274 LA", py "0o3275 WD", py "0o3301 FBAU", py "0o3305 FBM", py "0o3311 FBSU", py "0o3313 EBA",
   py "0o3315 ULD", py "0o3321 FDAU", py "0o3325 FDM", py "0o3330 RT", py "0o3331 FDSU", py "0o3333 EBS",
   py "0o3341 DA", py "0o3342 RW", py "0o3344 TS", py "0o3345 SM", py "0o3350 NN", py "0o3351 BA",
   py "0o3352 RB", py "0o3354 NA", py "0o3355 WA"]

/-- opcodes.txt 820-882 -/
def opcodesTxt13 : List Str :=
  [py "0o3356 WF", py "0o3360 TX", py "0o3361 DS", py "0o3364 CP", py "0o3365 HA", py "0o3370 LN",
   py "0o3371 BS", py "0o3372 RF", py "0o3374 LA", py "0o3375 WD", py "0o3401 FBAU", py "0o3405 FBM",
   py "0o3411 FBSU", py "0o3413 EBA", py "0o3415 ULD", py "0o3421 FDAU", py "0o3425 FDM", py "0o3430 RT",
   py "0o3431 FDSU", py "0o3433 EBS", py "0o3441 DA", py "0o3442 RW", py "0o3444 TS", py "0o3445 SM",
   py "0o3450 NN", py "0o3451 BA", py "0o3452 RB", py "0o3454 NA", py "0o3455 WA", py "0o3456 WF",
   py "0o3460 TX", py "0o3461 DS", py "0o3464 CP", py "0o3465 HA", py "0o3470 LN", py "0o3471 BS",
   py "0o3472 RF", py "0o3474 LA", py "0o3475 WD", py "0o3501 FBAU", py "0o3505 FBM", py "0o3511 FBSU",
   py "0o3513 EBA", py "0o3515 ULD", py "0o3521 FDAU", py "0o3525 FDM", py "0o3530 RT", py "0o3531 FDSU",
   py "0o3533 EBS", py "0o3541 DA", py "0o3542 RW", py "0o3544 TS", py "0o3545 SM", py "0o3550 NN",
   py "0o3551 BA", py "0o3552 RB", py "0o3554 NA", py "0o3555 WA", py "0o3556 WF", py "0o3560 TX",
   py "0o3561 DS", py "0o3564 CP", py "0o3565 HA"]

/-- opcodes.txt 883-945 -/
def opcodesTxt14 : List Str :=
  [py "0o3570 LN", py "0o3571 BS", py "0o3572 RF", py "0o3574 LA", py "0o3575 WD", py "0o3601 FBAU",
   py "0o3605 FBM", py "0o3611 FBSU", py "0o3613 EBA", py "0o3615 ULD", py "0o3621 FDAU", py "0o3625 FDM",
   py "0o3630 RT", py "0o3631 FDSU", py "0o3633 EBS", py "0o3641 DA", py "0o3642 RW", py "0o3644 TS",
   py "0o3645 SM", py "0o3650 NN", py "0o3651 BA", py "0o3652 RB", py "0o3654 NA", py "0o3655 WA",
   py "0o3656 WF", py "0o3660 TX", py "0o3661 DS", py "0o3664 CP", py "0o3665 HA", py "0o3670 LN",
   py "0o3671 BS", py "0o3672 RF", py "0o3674 LA", py "0o3675 WD", py "0o3701 FBAU", py "0o3705 FBM",
   py "0o3711 FBSU", py "0o3713 EBA", py "0o3715 ULD", py "0o3721 FDAU", py "0o3725 FDM", py "0o3730 RT",
   py "0o3731 FDSU", py "0o3733 EBS", py "0o3741 DA", py "0o3742 RW", py "0o3744 TS", py "0o3745 SM",
   py "0o3750 NN", py "0o3751 BA", py "0o3752 RB", py "0o3754 NA", py "0o3755 WA", py "0o3756 WF",
   py "0o3760 TX", py "0o3761 DS", py "0o3764 CP", py "0o3765 HA", py "0o3770 LN", py "0o3771 BS",
   py "0o3772 RF", py "0o3774 LA", py "0o3775 WD"]

/-- opcodes.txt 946-1008 -/
def opcodesTxt15 : List Str :=
  [py "0o4000 PR", py "0o4001 FBAE", py "0o4003 DM", py "0o4005 BD", py "0o4006 SS", py "0o4007 S",
   py "0o4011 FBSE", py "0o4013 BM", py "0o4015 FFN", py "0o4016 EX", py "0o4020 MT", py "0o4025 DD",
   py "0o4030 FLN", py "0o4035 FCON", py "0o4041 DA", py "0o4042 RW", py "0o4044 TS", py "0o4045 SM",
   py "0o4046 PRD", py "0o4050 NN", py "0o4051 BA", py "0o4052 RB", py "0o4054 NA", py "0o4055 WA",
   py "0o4056 WF", py "0o4060 TX", py "0o4061 DS", py "0o4064 CP", py "0o4065 HA", py "0o4070 LN",
   py "0o4071 BS", py "0o4072 RF", py "0o4074 LA", py "0o4075 WD", py "0o4100 PR", py "0o4101 FBAE",
   py "0o4103 DM", py "0o4105 BD", py "0o4106 SS", py "0o4111 FBSE", py "0o4113 BM", py "0o4115 FFN",
   py "0o4116 EX", py "0o4120 MT", py "0o4125 DD", py "0o4130 FLN", py "0o4135 FCON", py "0o4141 DA",
   py "0o4142 RW", py "0o4144 TS", py "0o4145 SM", py "0o4146 PRD", py "0o4150 NN", py "0o4151 BA",
   py "0o4152 RB", py "0o4154 NA", py "0o4155 WA", py "0o4156 WF", py "0o4160 TX", py "0o4161 DS",
   py "0o4164 CP", py "0o4165 HA", py "0o4170 LN"]

/-- opcodes.txt 1009-1071 -/
def opcodesTxt16 : List Str :=
  [py "0o4171 BS", py "0o4172 RF", py "0o4174 LA", py "0o4175 WD", py "0o4200 PR", py "0o4201 FBAE",
   py "0o4203 DM", py "0o4205 BD", py "0o4206 SS", py "0o4211 FBSE", py "0o4213 BM", py "0o4215 FFN",
   py "0o4216 EX", py "0o4220 MT", py "0o4225 DD", py "0o4230 FLN", py "0o4235 FCON", py "0o4241 DA",
   py "0o4242 RW", py "0o4244 TS", py "0o4245 SM", py "0o4246 PRD", py "0o4250 NN", py "0o4251 BA",
   py "0o4252 RB", py "0o4254 NA", py "0o4255 WA", py "0o4256 WF", py "0o4260 TX", py "0o4261 DS",
   py "0o4264 CP", py "0o4265 HA", py "0o4270 LN", py "0o4271 BS", py "0o4272 RF", py "0o4274 LA",
   py "0o4275 WD", py "0o4300 PR", py "0o4301 FBAE", py "0o4303 DM", py "0o4305 BD", py "0o4306 SS",
   py "0o4311 FBSE", py "0o4313 BM", py "0o4315 FFN", py "0o4316 EX", py "0o4320 MT", py "0o4325 DD",
   py "0o4330 FLN", py "0o4335 FCON", py "0o4341 DA", py "0o4342 RW", py "0o4344 TS", py "0o4345 SM",
   py "0o4346 PRD", py "0o4350 NN", py "0o4351 BA", py "0o4352 RB", py "0o4354 NA", py "0o4355 WA",
   py "0o4356 WF", py "0o4360 TX", py "0o4361 DS"]

/-- opcodes.txt 1072-1134 -/
def opcodesTxt17 : List Str :=
  [py "0o4364 CP", py "0o4365 HA", py "0o4370 LN", py "0o4371 BS", py "0o4372 RF", py "0o4374 LA",
   py "0o4375 WD", py "0o4400 PR", py "0o4401 FBAE", py "0o4403 DM", py "0o4405 BD", py "0o4406 SS",
   py "0o4411 FBSE", py "0o4413 BM", py "0o4415 FFN", py "0o4416 EX", py "0o4420 MT", py "0o4425 DD",
   py "0o4430 FLN", py "0o4435 FCON", py "0o4441 DA", py "0o4442 RW", py "0o4444 TS", py "0o4445 SM",
   py "0o4446 PRD", py "0o4450 NN", py "0o4451 BA", py "0o4452 RB", py "0o4454 NA", py "0o4455 WA",
   py "0o4456 WF", py "0o4460 TX", py "0o4461 DS", py "0o4464 CP", py "0o4465 HA", py "0o4470 LN",
   py "0o4471 BS", py "0o4472 RF", py "0o4474 LA", py "0o4475 WD", py "0o4500 PR", py "0o4501 FBAE",
   py "0o4503 DM", py "0o4505 BD", py "0o4506 SS", py "0o4511 FBSE", py "0o4513 BM", py "0o4515 FFN",
   py "0o4516 EX", py "0o4520 MT", py "0o4525 DD", py "0o4530 FLN", py "0o4535 FCON", py "0o4541 DA",
   py "0o4542 RW", py "0o4544 TS", py "0o4545 SM", py "0o4546 PRD", py "0o4550 NN", py "0o4551 BA",
   py "0o4552 RB", py "0o4554 NA", py "0o4555 WA"]

/-- opcodes.txt 1135-1197 -/
def opcodesTxt18 : List Str :=
  [py "0o4556 WF", py "0o4560 TX", py "0o4561 DS", py "0o4564 CP", py "0o4565 HA", py "0o4570 LN",
   py "0o4571 BS", py "0o4572 RF", py "0o4574 LA", py "0o4575 WD", py "0o4600 PR", py "0o4601 FBAE",
   py "0o4603 DM", py "0o4605 BD", py "0o4606 SS", py "0o4611 FBSE", py "0o4613 BM", py "0o4615 FFN",
   py "0o4616 EX", py "0o4620 MT", py "0o4625 DD", py "0o4630 FLN", py "0o4635 FCON", py "0o4641 DA",
   py "0o4642 RW", py "0o4644 TS", py "0o4645 SM", py "0o4646 PRD", py "0o4650 NN", py "0o4651 BA",
   py "0o4652 RB", py "0o4654 NA", py "0o4655 WA", py "0o4656 WF", py "0o4660 TX", py "0o4661 DS",
   py "0o4664 CP", py "0o4665 HA", py "0o4670 LN", py "0o4671 BS", py "0o4672 RF", py "0o4674 LA",
   py "0o4675 WD", py "0o4700 PR", py "0o4701 FBAE", py "0o4703 DM", py "0o4705 BD", py "0o4706 SS",
   py "0o4711 FBSE", py "0o4713 BM", py "0o4715 FFN", py "0o4716 EX", py "0o4720 MT", py "0o4725 DD",
   py "0o4730 FLN", py "0o4735 FCON", py "0o4741 DA", py "0o4742 RW", py "0o4744 TS", py "0o4745 SM",
   py "0o4746 PRD", py "0o4750 NN", py "0o4751 BA"]

/-- opcodes.txt 1198-1260 -/
def opcodesTxt19 : List Str :=
  [py "0o4752 RB", py "0o4754 NA", py "0o4755 WA", py "0o4756 WF", py "0o4760 TX", py "0o4761 DS",
   py "0o4764 CP", py "0o4765 HA", py "0o4770 LN", py "0o4771 BS", py "0o4772 RF", py "0o4774 LA",
   py "0o4775 WD", py "0o5001 FBA", py "0o5005 FBD", py "0o5010 CC", py "0o5011 FBS", py "0o5020 TN",
   py "0o5021 FDA", py "0o5025 FDD", py "0o5030 IT", py "0o5031 FDS", py "0o5041 DA", py "0o5042 RW",
   py "0o5044 TS", py "0o5045 SM", py "0o5050 NN", py "0o5051 BA", py "0o5052 RB", py "0o5054 NA",
   py "0o5055 WA", py "0o5056 WF", py "0o5060 TX", py "0o5061 DS", py "0o5064 CP", py "0o5065 HA",
   py "0o5070 LN", py "0o5071 BS", py "0o5072 RF", py "0o5074 LA", py "0o5075 WD", py "0o5101 FBA",
   py "0o5105 FBD", py "0o5110 CC", py "0o5111 FBS", py "0o5120 TN", py "0o5121 FDA", py "0o5125 FDD",
   py "0o5130 IT", py "0o5131 FDS", py "0o5141 DA", py "0o5142 RW", py "0o5144 TS", py "0o5145 SM",
   py "0o5150 NN", py "0o5151 BA", py "0o5152 RB", py "0o5154 NA", py "0o5155 WA", py "0o5156 WF",
   py "0o5160 TX", py "0o5161 DS", py "0o5164 CP"]

/-- opcodes.txt 1261-1323 -/
def opcodesTxt20 : List Str :=
  [py "0o5165 HA", py "0o5170 LN", py "0o5171 BS", py "0o5172 RF", py "0o5174 LA", py "0o5175 WD",
   py "0o5201 FBA", py "0o5205 FBD", py "0o5210 CC", py "0o5211 FBS", py "0o5220 TN", py "0o5221 FDA",
   py "0o5225 FDD", py "0o5230 IT", py "0o5231 FDS", py "0o5241 DA", py "0o5242 RW", py "0o5244 TS",
   py "0o5245 SM", py "0o5250 NN", py "0o5251 BA", py "0o5252 RB", py "0o5254 NA", py "0o5255 WA",
   py "0o5256 WF", py "0o5260 TX", py "0o5261 DS", py "0o5264 CP", py "0o5265 HA", py "0o5270 LN",
   py "0o5271 BS", py "0o5272 RF", py "0o5274 LA", py "0o5275 WD", py "0o5301 FBA", py "0o5305 FBD",
   py "0o5310 CC", py "0o5311 FBS", py "0o5320 TN", py "0o5321 FDA", py "0o5325 FDD", py "0o5330 IT",
   py "0o5331 FDS", py "0o5341 DA", py "0o5342 RW", py "0o5344 TS", py "0o5345 SM", py "0o5350 NN",
   py "0o5351 BA", py "0o5352 RB", py "0o5354 NA", py "0o5355 WA", py "0o5356 WF", py "0o5360 TX",
   py "0o5361 DS", py "0o5364 CP", py "0o5365 HA", py "0o5370 LN", py "0o5371 BS", py "0o5372 RF",
   py "0o5374 LA", py "0o5375 WD", py "0o5401 FBA"]

/-- opcodes.txt 1324-1386 -/
def opcodesTxt21 : List Str :=
  [py "0o5405 FBD", py "0o5410 CC", py "0o5411 FBS", py "0o5420 TN", py "0o5421 FDA", py "0o5425 FDD",
   py "0o5430 IT", py "0o5431 FDS", py "0o5441 DA", py "0o5442 RW", py "0o5444 TS", py "0o5445 SM",
   py "0o5450 NN", py "0o5451 BA", py "0o5452 RB", py "0o5454 NA", py "0o5455 WA", py "0o5456 WF",
   py "0o5460 TX", py "0o5461 DS", py "0o5464 CP", py "0o5465 HA", py "0o5470 LN", py "0o5471 BS",
   py "0o5472 RF", py "0o5474 LA", py "0o5475 WD", py "0o5501 FBA", py "0o5505 FBD", py "0o5510 CC",
   py "0o5511 FBS", py "0o5520 TN", py "0o5521 FDA", py "0o5525 FDD", py "0o5530 IT", py "0o5531 FDS",
   py "0o5541 DA", py "0o5542 RW", py "0o5544 TS", py "0o5545 SM", py "0o5550 NN", py "0o5551 BA",
   py "0o5552 RB", py "0o5554 NA", py "0o5555 WA", py "0o5556 WF", py "0o5560 TX", py "0o5561 DS",
   py "0o5564 CP", py "0o5565 HA", py "0o5570 LN", py "0o5571 BS", py "0o5572 RF", py "0o5574 LA",
   py "0o5575 WD", py "0o5601 FBA", py "0o5605 FBD", py "0o5610 CC", py "0o5611 FBS", py "0o5620 TN",
   py "0o5621 FDA", py "0o5625 FDD", py "0o5630 IT"]

/-- opcodes.txt 1387-1449 -/
def opcodesTxt22 : List Str :=
  [py "0o5631 FDS", py "0o5641 DA", py "0o5642 RW", py "0o5644 TS", py "0o5645 SM", py "0o5650 NN",
   py "0o5651 BA", py "0o5652 RB", py "0o5654 NA", py "0o5655 WA", py "0o5656 WF", py "0o5660 TX",
   py "0o5661 DS", py "0o5664 CP", py "0o5665 HA", py "0o5670 LN", py "0o5671 BS", py "0o5672 RF",
   py "0o5674 LA", py "0o5675 WD", py "0o5701 FBA", py "0o5705 FBD", py "0o5710 CC", py "0o5711 FBS",
   py "0o5720 TN", py "0o5721 FDA", py "0o5725 FDD", py "0o5730 IT", py "0o5731 FDS", py "0o5741 DA",
   py "0o5742 RW", py "0o5744 TS", py "0o5745 SM", py "0o5750 NN", py "0o5751 BA", py "0o5752 RB",
   py "0o5754 NA", py "0o5755 WA", py "0o5756 WF", py "0o5760 TX", py "0o5761 DS", py "0o5764 CP",
   py "0o5765 HA", py "0o5770 LN", py "0o5771 BS", py "0o5772 RF", py "0o5774 LA", py "0o5775 WD",
   py "0o6000 MPC", py "0o6002 SPS", py "0o6003 DT", py "0o6006 SWS", py "0o6012 SPE", py "0o6013 BT",
   py "0o6014 FNN", py "0o6016 SWE", py "0o6026 SSL", py "0o6041 DA", py "0o6042 RW", py "0o6044 TS",
   py "0o6045 SM", py "0o6050 NN", py "0o6051 BA"]

/-- opcodes.txt 1450-1512 -/
def opcodesTxt23 : List Str :=
  [py "0o6052 RB", py "0o6054 NA", py "0o6055 WA", py "0o6056 WF", py "0o6060 TX", py "0o6061 DS",
   py "0o6064 CP", py "0o6065 HA", py "0o6070 LN", py "0o6071 BS", py "0o6072 RF", py "0o6074 LA",
   py "0o6075 WD", py "0o6100 MPC", py "0o6102 SPS", py "0o6103 DT", py "0o6106 SWS", py "0o6112 SPE",
   py "0o6113 BT", py "0o6114 FNN", py "0o6116 SWE", py "0o6126 SSL", py "0o6141 DA", py "0o6142 RW",
   py "0o6144 TS", py "0o6145 SM", py "0o6150 NN", py "0o6151 BA", py "0o6152 RB", py "0o6154 NA",
   py "0o6155 WA", py "0o6156 WF", py "0o6160 TX", py "0o6161 DS", py "0o6164 CP", py "0o6165 HA",
   py "0o6170 LN", py "0o6171 BS", py "0o6172 RF", py "0o6174 LA", py "0o6175 WD", py "0o6200 MPC",
   py "0o6202 SPS", py "0o6203 DT", py "0o6206 SWS", py "0o6212 SPE", py "0o6213 BT", py "0o6214 FNN",
   py "0o6216 SWE", py "0o6226 SSL", py "0o6241 DA", py "0o6242 RW", py "0o6244 TS", py "0o6245 SM",
   py "0o6250 NN", py "0o6251 BA", py "0o6252 RB", py "0o6254 NA", py "0o6255 WA", py "0o6256 WF",
   py "0o6260 TX", py "0o6261 DS", py "0o6264 CP"]

/-- opcodes.txt 1513-1575 -/
def opcodesTxt24 : List Str :=
  [py "0o6265 HA", py "0o6270 LN", py "0o6271 BS", py "0o6272 RF", py "0o6274 LA", py "0o6275 WD",
   py "0o6300 MPC", py "0o6302 SPS", py "0o6303 DT", py "0o6306 SWS", py "0o6312 SPE", py "0o6313 BT",
   py "0o6314 FNN", py "0o6316 SWE", py "0o6326 SSL", py "0o6341 DA", py "0o6342 RW", py "0o6344 TS",
   py "0o6345 SM", py "0o6350 NN", py "0o6351 BA", py "0o6352 RB", py "0o6354 NA", py "0o6355 WA",
   py "0o6356 WF", py "0o6360 TX", py "0o6361 DS", py "0o6364 CP", py "0o6365 HA", py "0o6370 LN",
   py "0o6371 BS", py "0o6372 RF", py "0o6374 LA", py "0o6375 WD", py "0o6400 MPC", py "0o6402 SPS",
   py "0o6403 DT", py "0o6406 SWS", py "0o6412 SPE", py "0o6413 BT", py "0o6414 FNN", py "0o6416 SWE",
   py "0o6426 SSL", py "0o6441 DA", py "0o6442 RW", py "0o6444 TS", py "0o6445 SM", py "0o6450 NN",
   py "0o6451 BA", py "0o6452 RB", py "0o6454 NA", py "0o6455 WA", py "0o6456 WF", py "0o6460 TX",
   py "0o6461 DS", py "0o6464 CP", py "0o6465 HA", py "0o6470 LN", py "0o6471 BS", py "0o6472 RF",
   py "0o6474 LA", py "0o6475 WD", py "0o6500 MPC"]

/-- opcodes.txt 1576-1638 -/
def opcodesTxt25 : List Str :=
  [py "0o6502 SPS", py "0o6503 DT", py "0o6506 SWS", py "0o6512 SPE", py "0o6513 BT", py "0o6514 FNN",
   py "0o6516 SWE", py "0o6526 SSL", py "0o6541 DA", py "0o6542 RW", py "0o6544 TS", py "0o6545 SM",
   py "0o6550 NN", py "0o6551 BA", py "0o6552 RB", py "0o6554 NA", py "0o6555 WA", py "0o6556 WF",
   py "0o6560 TX", py "0o6561 DS", py "0o6564 CP", py "0o6565 HA", py "0o6570 LN", py "0o6571 BS",
   py "0o6572 RF", py "0o6574 LA", py "0o6575 WD", py "0o6600 MPC", py "0o6602 SPS", py "0o6603 DT",
   py "0o6606 SWS", py "0o6612 SPE", py "0o6613 BT", py "0o6614 FNN", py "0o6616 SWE", py "0o6626 SSL",
   py "0o6641 DA", py "0o6642 RW", py "0o6644 TS", py "0o6645 SM", py "0o6650 NN", py "0o6651 BA",
   py "0o6652 RB", py "0o6654 NA", py "0o6655 WA", py "0o6656 WF", py "0o6660 TX", py "0o6661 DS",
   py "0o6664 CP", py "0o6665 HA", py "0o6670 LN", py "0o6671 BS", py "0o6672 RF", py "0o6674 LA",
   py "0o6675 WD", py "0o6700 MPC", py "0o6702 SPS", py "0o6703 DT", py "0o6706 SWS", py "0o6712 SPE",
   py "0o6713 BT", py "0o6714 FNN", py "0o6716 SWE"]

/-- opcodes.txt 1639-1701 -/
def opcodesTxt26 : List Str :=
  [py "0o6726 SSL", py "0o6741 DA", py "0o6742 RW", py "0o6744 TS", py "0o6745 SM", py "0o6750 NN",
   py "0o6751 BA", py "0o6752 RB", py "0o6754 NA", py "0o6755 WA", py "0o6756 WF", py "0o6760 TX",
   py "0o6761 DS", py "0o6764 CP", py "0o6765 HA", py "0o6770 LN", py "0o6771 BS", py "0o6772 RF",
   py "0o6774 LA", py "0o6775 WD", py "0o7001 FBAU", py "0o7005 FBM", py "0o7011 FBSU", py "0o7013 EBA",
   py "0o7015 ULD", py "0o7021 FDAU", py "0o7025 FDM", py "0o7030 RT", py "0o7031 FDSU", py "0o7033 EBS",
   py "0o7041 DA", py "0o7042 RW", py "0o7044 TS", py "0o7045 SM", py "0o7050 NN", py "0o7051 BA",
   py "0o7052 RB", py "0o7054 NA", py "0o7055 WA", py "0o7056 WF", py "0o7060 TX", py "0o7061 DS",
   py "0o7064 CP", py "0o7065 HA", py "0o7070 LN", py "0o7071 BS", py "0o7072 RF", py "0o7074 LA",
   py "0o7075 WD", py "0o7101 FBAU", py "0o7105 FBM", py "0o7111 FBSU", py "0o7113 EBA", py "0o7115 ULD",
   py "0o7121 FDAU", py "0o7125 FDM", py "0o7130 RT", py "0o7131 FDSU", py "0o7133 EBS", py "0o7141 DA",
   py "0o7142 RW", py "0o7144 TS", py "0o7145 SM"]

/-- opcodes.txt 1702-1764 -/
def opcodesTxt27 : List Str :=
  [py "0o7150 NN", py "0o7151 BA", py "0o7152 RB", py "0o7154 NA", py "0o7155 WA", py "0o7156 WF",
   py "0o7160 TX", py "0o7161 DS", py "0o7164 CP", py "0o7165 HA", py "0o7170 LN", py "0o7171 BS",
   py "0o7172 RF", py "0o7174 LA", py "0o7175 WD", py "0o7201 FBAU", py "0o7205 FBM", py "0o7211 FBSU",
   py "0o7213 EBA", py "0o7215 ULD", py "0o7221 FDAU", py "0o7225 FDM", py "0o7230 RT", py "0o7231 FDSU",
   py "0o7233 EBS", py "0o7241 DA", py "0o7242 RW", py "0o7244 TS", py "0o7245 SM", py "0o7250 NN",
   py "0o7251 BA", py "0o7252 RB", py "0o7254 NA", py "0o7255 WA", py "0o7256 WF", py "0o7260 TX",
   py "0o7261 DS", py "0o7264 CP", py "0o7265 HA", py "0o7270 LN", py "0o7271 BS", py "0o7272 RF",
   py "0o7274 LA", py "0o7275 WD", py "0o7301 FBAU", py "0o7305 FBM", py "0o7311 FBSU", py "0o7313 EBA",
   py "0o7315 ULD", py "0o7321 FDAU", py "0o7325 FDM", py "0o7330 RT", py "0o7331 FDSU", py "0o7333 EBS",
   py "0o7341 DA", py "0o7342 RW", py "0o7344 TS", py "0o7345 SM", py "0o7350 NN", py "0o7351 BA",
   py "0o7352 RB", py "0o7354 NA", py "0o7355 WA"]

/-- opcodes.txt 1765-1827 -/
def opcodesTxt28 : List Str :=
  [py "0o7356 WF", py "0o7360 TX", py "0o7361 DS", py "0o7364 CP", py "0o7365 HA", py "0o7370 LN",
   py "0o7371 BS", py "0o7372 RF", py "0o7374 LA", py "0o7375 WD", py "0o7401 FBAU", py "0o7405 FBM",
   py "0o7411 FBSU", py "0o7413 EBA", py "0o7415 ULD", py "0o7421 FDAU", py "0o7425 FDM", py "0o7430 RT",
   py "0o7431 FDSU", py "0o7433 EBS", py "0o7441 DA", py "0o7442 RW", py "0o7444 TS", py "0o7445 SM",
   py "0o7450 NN", py "0o7451 BA", py "0o7452 RB", py "0o7454 NA", py "0o7455 WA", py "0o7456 WF",
   py "0o7460 TX", py "0o7461 DS", py "0o7464 CP", py "0o7465 HA", py "0o7470 LN", py "0o7471 BS",
   py "0o7472 RF", py "0o7474 LA", py "0o7475 WD", py "0o7501 FBAU", py "0o7505 FBM", py "0o7511 FBSU",
   py "0o7513 EBA", py "0o7515 ULD", py "0o7521 FDAU", py "0o7525 FDM", py "0o7530 RT", py "0o7531 FDSU",
   py "0o7533 EBS", py "0o7541 DA", py "0o7542 RW", py "0o7544 TS", py "0o7545 SM", py "0o7550 NN",
   py "0o7551 BA", py "0o7552 RB", py "0o7554 NA", py "0o7555 WA", py "0o7556 WF", py "0o7560 TX",
   py "0o7561 DS", py "0o7564 CP", py "0o7565 HA"]

/-- opcodes.txt 1828-1890 -/
def opcodesTxt29 : List Str :=
  [py "0o7570 LN", py "0o7571 BS", py "0o7572 RF", py "0o7574 LA", py "0o7575 WD", py "0o7601 FBAU",
   py "0o7605 FBM", py "0o7611 FBSU", py "0o7613 EBA", py "0o7615 ULD", py "0o7621 FDAU", py "0o7625 FDM",
   py "0o7630 RT", py "0o7631 FDSU", py "0o7633 EBS", py "0o7641 DA", py "0o7642 RW", py "0o7644 TS",
   py "0o7645 SM", py "0o7650 NN", py "0o7651 BA", py "0o7652 RB", py "0o7654 NA", py "0o7655 WA",
   py "0o7656 WF", py "0o7660 TX", py "0o7661 DS", py "0o7664 CP", py "0o7665 HA", py "0o7670 LN",
   py "0o7671 BS", py "0o7672 RF", py "0o7674 LA", py "0o7675 WD", py "0o7701 FBAU", py "0o7705 FBM",
   py "0o7711 FBSU", py "0o7713 EBA", py "0o7715 ULD", py "0o7721 FDAU", py "0o7725 FDM", py "0o7730 RT",
   py "0o7731 FDSU", py "0o7733 EBS", py "0o7741 DA", py "0o7742 RW", py "0o7744 TS", py "0o7745 SM",
   py "0o7750 NN", py "0o7751 BA", py "0o7752 RB", py "0o7754 NA", py "0o7755 WA", py "0o7756 WF",
   py "0o7760 TX", py "0o7761 DS", py "0o7764 CP", py "0o7765 HA", py "0o7770 LN", py "0o7771 BS",
   py "0o7772 RF", py "0o7774 LA", py "0o7775 WD"]

/-- The whole of opcodes.txt. -/
def opcodesTxt : List Str :=
  opcodesTxt0 ++ opcodesTxt1 ++ opcodesTxt2 ++ opcodesTxt3 ++ opcodesTxt4 ++
  opcodesTxt5 ++ opcodesTxt6 ++ opcodesTxt7 ++ opcodesTxt8 ++ opcodesTxt9 ++
  opcodesTxt10 ++ opcodesTxt11 ++ opcodesTxt12 ++ opcodesTxt13 ++ opcodesTxt14 ++
  opcodesTxt15 ++ opcodesTxt16 ++ opcodesTxt17 ++ opcodesTxt18 ++ opcodesTxt19 ++
  opcodesTxt20 ++ opcodesTxt21 ++ opcodesTxt22 ++ opcodesTxt23 ++ opcodesTxt24 ++
  opcodesTxt25 ++ opcodesTxt26 ++ opcodesTxt27 ++ opcodesTxt28 ++ opcodesTxt29

end H800.Spec
