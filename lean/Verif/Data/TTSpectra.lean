/-
Generated by scripts/gen_data.py from tokamak_neutron_source/data/spectra/T_T_spectra.txt.
Each row is (energy in 1e-14 MeV, 40 intensities in 1e-92 / MeV), exact.
-/

set_option autoImplicit false
set_option maxRecDepth 100000

namespace TNS.Data

noncomputable def ttSpec0 : List (Nat × List Nat) := [
  (100000000000, [2933453884060000000000000000000000000000000000000000000000000000000000000000000000000000, 5974676945590000000000000000000000000000000000000000000000000000000000000000000000000000, 8115156436650000000000000000000000000000000000000000000000000000000000000000000000000000, 9374416705140000000000000000000000000000000000000000000000000000000000000000000000000000, 9998495450860000000000000000000000000000000000000000000000000000000000000000000000000000, 10205203768800000000000000000000000000000000000000000000000000000000000000000000000000000, 10149795537600000000000000000000000000000000000000000000000000000000000000000000000000000, 9935575404990000000000000000000000000000000000000000000000000000000000000000000000000000, 9629434865960000000000000000000000000000000000000000000000000000000000000000000000000000, 9274164526470000000000000000000000000000000000000000000000000000000000000000000000000000, 8896961139650000000000000000000000000000000000000000000000000000000000000000000000000000, 8515037583260000000000000000000000000000000000000000000000000000000000000000000000000000, 8139262248530000000000000000000000000000000000000000000000000000000000000000000000000000, 7776505760300000000000000000000000000000000000000000000000000000000000000000000000000000, 7431146705950000000000000000000000000000000000000000000000000000000000000000000000000000, 7106029371420000000000000000000000000000000000000000000000000000000000000000000000000000, 6803063664290000000000000000000000000000000000000000000000000000000000000000000000000000, 6523592006430000000000000000000000000000000000000000000000000000000000000000000000000000, 6268605980280000000000000000000000000000000000000000000000000000000000000000000000000000, 6038867963060000000000000000000000000000000000000000000000000000000000000000000000000000, 5834974518860000000000000000000000000000000000000000000000000000000000000000000000000000, 5657385758620000000000000000000000000000000000000000000000000000000000000000000000000000, 5506436285250000000000000000000000000000000000000000000000000000000000000000000000000000, 5382337484950000000000000000000000000000000000000000000000000000000000000000000000000000, 5285176982620000000000000000000000000000000000000000000000000000000000000000000000000000, 5214918476970000000000000000000000000000000000000000000000000000000000000000000000000000, 5171403503080000000000000000000000000000000000000000000000000000000000000000000000000000, 5154355644440000000000000000000000000000000000000000000000000000000000000000000000000000, 5163387122750000000000000000000000000000000000000000000000000000000000000000000000000000, 5198007385210000000000000000000000000000000000000000000000000000000000000000000000000000, 5257633179700000000000000000000000000000000000000000000000000000000000000000000000000000, 5341599588400000000000000000000000000000000000000000000000000000000000000000000000000000, 5449171531830000000000000000000000000000000000000000000000000000000000000000000000000000, 5579555326600000000000000000000000000000000000000000000000000000000000000000000000000000, 5731909962270000000000000000000000000000000000000000000000000000000000000000000000000000, 5905357843660000000000000000000000000000000000000000000000000000000000000000000000000000, 6098994818850000000000000000000000000000000000000000000000000000000000000000000000000000, 6311899376090000000000000000000000000000000000000000000000000000000000000000000000000000, 6543140945380000000000000000000000000000000000000000000000000000000000000000000000000000, 6791787281690000000000000000000000000000000000000000000000000000000000000000000000000000]),
  (2204008016030, [1060512179020000000000000000000000000000000000000000000000000000000000000000000000000000000, 869381520509000000000000000000000000000000000000000000000000000000000000000000000000000000, 754365790229000000000000000000000000000000000000000000000000000000000000000000000000000000, 675520544745000000000000000000000000000000000000000000000000000000000000000000000000000000, 617375050089000000000000000000000000000000000000000000000000000000000000000000000000000000, 572595725103000000000000000000000000000000000000000000000000000000000000000000000000000000, 537201611279000000000000000000000000000000000000000000000000000000000000000000000000000000, 508779186579000000000000000000000000000000000000000000000000000000000000000000000000000000, 485724683653000000000000000000000000000000000000000000000000000000000000000000000000000000, 466895404811000000000000000000000000000000000000000000000000000000000000000000000000000000, 451437212368000000000000000000000000000000000000000000000000000000000000000000000000000000, 438691985387000000000000000000000000000000000000000000000000000000000000000000000000000000, 428143281782000000000000000000000000000000000000000000000000000000000000000000000000000000, 419381441006000000000000000000000000000000000000000000000000000000000000000000000000000000, 412079391496000000000000000000000000000000000000000000000000000000000000000000000000000000, 405974905921000000000000000000000000000000000000000000000000000000000000000000000000000000, 400857096432000000000000000000000000000000000000000000000000000000000000000000000000000000, 396555908680000000000000000000000000000000000000000000000000000000000000000000000000000000, 392933849811000000000000000000000000000000000000000000000000000000000000000000000000000000, 389879435766000000000000000000000000000000000000000000000000000000000000000000000000000000, 387301986208000000000000000000000000000000000000000000000000000000000000000000000000000000, 385127485364000000000000000000000000000000000000000000000000000000000000000000000000000000, 383295289166000000000000000000000000000000000000000000000000000000000000000000000000000000, 381755504926000000000000000000000000000000000000000000000000000000000000000000000000000000, 380466905269000000000000000000000000000000000000000000000000000000000000000000000000000000, 379395266118000000000000000000000000000000000000000000000000000000000000000000000000000000, 378512041013000000000000000000000000000000000000000000000000000000000000000000000000000000, 377793302049000000000000000000000000000000000000000000000000000000000000000000000000000000, 377218892175000000000000000000000000000000000000000000000000000000000000000000000000000000, 376771745089000000000000000000000000000000000000000000000000000000000000000000000000000000, 376437338159000000000000000000000000000000000000000000000000000000000000000000000000000000, 376203251067000000000000000000000000000000000000000000000000000000000000000000000000000000, 376058808595000000000000000000000000000000000000000000000000000000000000000000000000000000, 375994790545000000000000000000000000000000000000000000000000000000000000000000000000000000, 376003195321000000000000000000000000000000000000000000000000000000000000000000000000000000, 376077046532000000000000000000000000000000000000000000000000000000000000000000000000000000, 376210234181000000000000000000000000000000000000000000000000000000000000000000000000000000, 376397383745000000000000000000000000000000000000000000000000000000000000000000000000000000, 376633747799000000000000000000000000000000000000000000000000000000000000000000000000000000, 376915115970000000000000000000000000000000000000000000000000000000000000000000000000000000]),
  (4308016032060, [1708547795040000000000000000000000000000000000000000000000000000000000000000000000000000000, 1419781620850000000000000000000000000000000000000000000000000000000000000000000000000000000, 1241273039050000000000000000000000000000000000000000000000000000000000000000000000000000000, 1119001597210000000000000000000000000000000000000000000000000000000000000000000000000000000, 1031157651680000000000000000000000000000000000000000000000000000000000000000000000000000000, 966623880565000000000000000000000000000000000000000000000000000000000000000000000000000000, 918690690248000000000000000000000000000000000000000000000000000000000000000000000000000000, 882873206984000000000000000000000000000000000000000000000000000000000000000000000000000000, 856011467284000000000000000000000000000000000000000000000000000000000000000000000000000000, 835822212471000000000000000000000000000000000000000000000000000000000000000000000000000000, 820635186435000000000000000000000000000000000000000000000000000000000000000000000000000000, 809219888851000000000000000000000000000000000000000000000000000000000000000000000000000000, 800664937498000000000000000000000000000000000000000000000000000000000000000000000000000000, 794291843076000000000000000000000000000000000000000000000000000000000000000000000000000000, 789592736326000000000000000000000000000000000000000000000000000000000000000000000000000000, 786185215717000000000000000000000000000000000000000000000000000000000000000000000000000000, 783779543421000000000000000000000000000000000000000000000000000000000000000000000000000000, 782154764563000000000000000000000000000000000000000000000000000000000000000000000000000000, 781141273811000000000000000000000000000000000000000000000000000000000000000000000000000000, 780608040465000000000000000000000000000000000000000000000000000000000000000000000000000000, 780453203008000000000000000000000000000000000000000000000000000000000000000000000000000000, 780597106245000000000000000000000000000000000000000000000000000000000000000000000000000000, 780977115274000000000000000000000000000000000000000000000000000000000000000000000000000000, 781543727730000000000000000000000000000000000000000000000000000000000000000000000000000000, 782257639672000000000000000000000000000000000000000000000000000000000000000000000000000000, 783087516091000000000000000000000000000000000000000000000000000000000000000000000000000000, 784008285341000000000000000000000000000000000000000000000000000000000000000000000000000000, 784999825707000000000000000000000000000000000000000000000000000000000000000000000000000000, 786045947436000000000000000000000000000000000000000000000000000000000000000000000000000000, 787133598900000000000000000000000000000000000000000000000000000000000000000000000000000000, 788252243888000000000000000000000000000000000000000000000000000000000000000000000000000000, 789393370428000000000000000000000000000000000000000000000000000000000000000000000000000000, 790550101325000000000000000000000000000000000000000000000000000000000000000000000000000000, 791716883825000000000000000000000000000000000000000000000000000000000000000000000000000000, 792889241216000000000000000000000000000000000000000000000000000000000000000000000000000000, 794063573131000000000000000000000000000000000000000000000000000000000000000000000000000000, 795236994399000000000000000000000000000000000000000000000000000000000000000000000000000000, 796407204502000000000000000000000000000000000000000000000000000000000000000000000000000000, 797572381492000000000000000000000000000000000000000000000000000000000000000000000000000000, 798731095505000000000000000000000000000000000000000000000000000000000000000000000000000000]),
  (6412024048100, [2191971811630000000000000000000000000000000000000000000000000000000000000000000000000000000, 1859556308020000000000000000000000000000000000000000000000000000000000000000000000000000000, 1650026602710000000000000000000000000000000000000000000000000000000000000000000000000000000, 1512724995340000000000000000000000000000000000000000000000000000000000000000000000000000000, 1422186147130000000000000000000000000000000000000000000000000000000000000000000000000000000, 1362615610920000000000000000000000000000000000000000000000000000000000000000000000000000000, 1323572098830000000000000000000000000000000000000000000000000000000000000000000000000000000, 1298104278870000000000000000000000000000000000000000000000000000000000000000000000000000000, 1281605090340000000000000000000000000000000000000000000000000000000000000000000000000000000, 1271032548030000000000000000000000000000000000000000000000000000000000000000000000000000000, 1264379833630000000000000000000000000000000000000000000000000000000000000000000000000000000, 1260321027300000000000000000000000000000000000000000000000000000000000000000000000000000000, 1257977480790000000000000000000000000000000000000000000000000000000000000000000000000000000, 1256764900790000000000000000000000000000000000000000000000000000000000000000000000000000000, 1256293483860000000000000000000000000000000000000000000000000000000000000000000000000000000, 1256302591780000000000000000000000000000000000000000000000000000000000000000000000000000000, 1256617838990000000000000000000000000000000000000000000000000000000000000000000000000000000, 1257122737110000000000000000000000000000000000000000000000000000000000000000000000000000000, 1257739833110000000000000000000000000000000000000000000000000000000000000000000000000000000, 1258418075930000000000000000000000000000000000000000000000000000000000000000000000000000000, 1259124299420000000000000000000000000000000000000000000000000000000000000000000000000000000, 1259837446280000000000000000000000000000000000000000000000000000000000000000000000000000000, 1260544631920000000000000000000000000000000000000000000000000000000000000000000000000000000, 1261238452230000000000000000000000000000000000000000000000000000000000000000000000000000000, 1261915138280000000000000000000000000000000000000000000000000000000000000000000000000000000, 1262573291030000000000000000000000000000000000000000000000000000000000000000000000000000000, 1263213015280000000000000000000000000000000000000000000000000000000000000000000000000000000, 1263835329480000000000000000000000000000000000000000000000000000000000000000000000000000000, 1264441766520000000000000000000000000000000000000000000000000000000000000000000000000000000, 1265034107100000000000000000000000000000000000000000000000000000000000000000000000000000000, 1265614204750000000000000000000000000000000000000000000000000000000000000000000000000000000, 1266183874430000000000000000000000000000000000000000000000000000000000000000000000000000000, 1266744824620000000000000000000000000000000000000000000000000000000000000000000000000000000, 1267298619270000000000000000000000000000000000000000000000000000000000000000000000000000000, 1267846659660000000000000000000000000000000000000000000000000000000000000000000000000000000, 1268390179570000000000000000000000000000000000000000000000000000000000000000000000000000000, 1268930248950000000000000000000000000000000000000000000000000000000000000000000000000000000, 1269467782780000000000000000000000000000000000000000000000000000000000000000000000000000000, 1270003552920000000000000000000000000000000000000000000000000000000000000000000000000000000, 1270538201400000000000000000000000000000000000000000000000000000000000000000000000000000000]),
  (8516032064130, [2482137872180000000000000000000000000000000000000000000000000000000000000000000000000000000, 2167752294800000000000000000000000000000000000000000000000000000000000000000000000000000000, 1979575418110000000000000000000000000000000000000000000000000000000000000000000000000000000, 1870494437290000000000000000000000000000000000000000000000000000000000000000000000000000000, 1808684877680000000000000000000000000000000000000000000000000000000000000000000000000000000, 1774341475870000000000000000000000000000000000000000000000000000000000000000000000000000000, 1755669653360000000000000000000000000000000000000000000000000000000000000000000000000000000, 1745812351570000000000000000000000000000000000000000000000000000000000000000000000000000000, 1740838164080000000000000000000000000000000000000000000000000000000000000000000000000000000, 1738515075250000000000000000000000000000000000000000000000000000000000000000000000000000000, 1737587929240000000000000000000000000000000000000000000000000000000000000000000000000000000, 1737359599130000000000000000000000000000000000000000000000000000000000000000000000000000000, 1737450067560000000000000000000000000000000000000000000000000000000000000000000000000000000, 1737658338500000000000000000000000000000000000000000000000000000000000000000000000000000000, 1737883451360000000000000000000000000000000000000000000000000000000000000000000000000000000, 1738079411090000000000000000000000000000000000000000000000000000000000000000000000000000000, 1738229586070000000000000000000000000000000000000000000000000000000000000000000000000000000, 1738332286190000000000000000000000000000000000000000000000000000000000000000000000000000000, 1738392758000000000000000000000000000000000000000000000000000000000000000000000000000000000, 1738418852360000000000000000000000000000000000000000000000000000000000000000000000000000000, 1738418779860000000000000000000000000000000000000000000000000000000000000000000000000000000, 1738400038110000000000000000000000000000000000000000000000000000000000000000000000000000000, 1738368982560000000000000000000000000000000000000000000000000000000000000000000000000000000, 1738330737560000000000000000000000000000000000000000000000000000000000000000000000000000000, 1738289275590000000000000000000000000000000000000000000000000000000000000000000000000000000, 1738247568520000000000000000000000000000000000000000000000000000000000000000000000000000000, 1738207759150000000000000000000000000000000000000000000000000000000000000000000000000000000, 1738171326660000000000000000000000000000000000000000000000000000000000000000000000000000000, 1738139233670000000000000000000000000000000000000000000000000000000000000000000000000000000, 1738112050910000000000000000000000000000000000000000000000000000000000000000000000000000000, 1738090059270000000000000000000000000000000000000000000000000000000000000000000000000000000, 1738073331290000000000000000000000000000000000000000000000000000000000000000000000000000000, 1738061794880000000000000000000000000000000000000000000000000000000000000000000000000000000, 1738055282120000000000000000000000000000000000000000000000000000000000000000000000000000000, 1738053565930000000000000000000000000000000000000000000000000000000000000000000000000000000, 1738056387150000000000000000000000000000000000000000000000000000000000000000000000000000000, 1738063473940000000000000000000000000000000000000000000000000000000000000000000000000000000, 1738074555380000000000000000000000000000000000000000000000000000000000000000000000000000000, 1738089370560000000000000000000000000000000000000000000000000000000000000000000000000000000, 1738107674310000000000000000000000000000000000000000000000000000000000000000000000000000000]),
  (10620040080200, [2636400658440000000000000000000000000000000000000000000000000000000000000000000000000000000, 2409419404360000000000000000000000000000000000000000000000000000000000000000000000000000000, 2289996684610000000000000000000000000000000000000000000000000000000000000000000000000000000, 2232428691530000000000000000000000000000000000000000000000000000000000000000000000000000000, 2206339130470000000000000000000000000000000000000000000000000000000000000000000000000000000, 2195371057310000000000000000000000000000000000000000000000000000000000000000000000000000000, 2191279264500000000000000000000000000000000000000000000000000000000000000000000000000000000, 2190082915050000000000000000000000000000000000000000000000000000000000000000000000000000000, 2189944234530000000000000000000000000000000000000000000000000000000000000000000000000000000, 2190066307710000000000000000000000000000000000000000000000000000000000000000000000000000000, 2190139723170000000000000000000000000000000000000000000000000000000000000000000000000000000, 2190072305960000000000000000000000000000000000000000000000000000000000000000000000000000000, 2189860906010000000000000000000000000000000000000000000000000000000000000000000000000000000, 2189532908630000000000000000000000000000000000000000000000000000000000000000000000000000000, 2189121185820000000000000000000000000000000000000000000000000000000000000000000000000000000, 2188654608020000000000000000000000000000000000000000000000000000000000000000000000000000000, 2188155460190000000000000000000000000000000000000000000000000000000000000000000000000000000, 2187639667800000000000000000000000000000000000000000000000000000000000000000000000000000000, 2187117963150000000000000000000000000000000000000000000000000000000000000000000000000000000, 2186597190160000000000000000000000000000000000000000000000000000000000000000000000000000000, 2186081443610000000000000000000000000000000000000000000000000000000000000000000000000000000, 2185572961890000000000000000000000000000000000000000000000000000000000000000000000000000000, 2185072783210000000000000000000000000000000000000000000000000000000000000000000000000000000, 2184581206920000000000000000000000000000000000000000000000000000000000000000000000000000000, 2184098105650000000000000000000000000000000000000000000000000000000000000000000000000000000, 2183623129030000000000000000000000000000000000000000000000000000000000000000000000000000000, 2183155831420000000000000000000000000000000000000000000000000000000000000000000000000000000, 2182695747970000000000000000000000000000000000000000000000000000000000000000000000000000000, 2182242436570000000000000000000000000000000000000000000000000000000000000000000000000000000, 2181795498150000000000000000000000000000000000000000000000000000000000000000000000000000000, 2181354583640000000000000000000000000000000000000000000000000000000000000000000000000000000, 2180919393370000000000000000000000000000000000000000000000000000000000000000000000000000000, 2180489672340000000000000000000000000000000000000000000000000000000000000000000000000000000, 2180065203880000000000000000000000000000000000000000000000000000000000000000000000000000000, 2179645802840000000000000000000000000000000000000000000000000000000000000000000000000000000, 2179231309190000000000000000000000000000000000000000000000000000000000000000000000000000000, 2178821582450000000000000000000000000000000000000000000000000000000000000000000000000000000, 2178416496960000000000000000000000000000000000000000000000000000000000000000000000000000000, 2178015938100000000000000000000000000000000000000000000000000000000000000000000000000000000, 2177619799310000000000000000000000000000000000000000000000000000000000000000000000000000000]),
  (12724048096200, [2736605344850000000000000000000000000000000000000000000000000000000000000000000000000000000, 2649299371740000000000000000000000000000000000000000000000000000000000000000000000000000000, 2612461871420000000000000000000000000000000000000000000000000000000000000000000000000000000, 2601057542720000000000000000000000000000000000000000000000000000000000000000000000000000000, 2599432726650000000000000000000000000000000000000000000000000000000000000000000000000000000, 2600627349580000000000000000000000000000000000000000000000000000000000000000000000000000000, 2602032816660000000000000000000000000000000000000000000000000000000000000000000000000000000, 2602899307240000000000000000000000000000000000000000000000000000000000000000000000000000000, 2603164984130000000000000000000000000000000000000000000000000000000000000000000000000000000, 2602966996420000000000000000000000000000000000000000000000000000000000000000000000000000000, 2602461691130000000000000000000000000000000000000000000000000000000000000000000000000000000, 2601772019080000000000000000000000000000000000000000000000000000000000000000000000000000000, 2600981585800000000000000000000000000000000000000000000000000000000000000000000000000000000, 2600142556600000000000000000000000000000000000000000000000000000000000000000000000000000000, 2599285382780000000000000000000000000000000000000000000000000000000000000000000000000000000, 2598426709910000000000000000000000000000000000000000000000000000000000000000000000000000000, 2597574919280000000000000000000000000000000000000000000000000000000000000000000000000000000, 2596733706690000000000000000000000000000000000000000000000000000000000000000000000000000000, 2595904266050000000000000000000000000000000000000000000000000000000000000000000000000000000, 2595086558500000000000000000000000000000000000000000000000000000000000000000000000000000000, 2594280014230000000000000000000000000000000000000000000000000000000000000000000000000000000, 2593483897420000000000000000000000000000000000000000000000000000000000000000000000000000000, 2592697479920000000000000000000000000000000000000000000000000000000000000000000000000000000, 2591920111170000000000000000000000000000000000000000000000000000000000000000000000000000000, 2591151235830000000000000000000000000000000000000000000000000000000000000000000000000000000, 2590390387360000000000000000000000000000000000000000000000000000000000000000000000000000000, 2589637173030000000000000000000000000000000000000000000000000000000000000000000000000000000, 2588891257580000000000000000000000000000000000000000000000000000000000000000000000000000000, 2588152348890000000000000000000000000000000000000000000000000000000000000000000000000000000, 2587420186720000000000000000000000000000000000000000000000000000000000000000000000000000000, 2586694534360000000000000000000000000000000000000000000000000000000000000000000000000000000, 2585975172910000000000000000000000000000000000000000000000000000000000000000000000000000000, 2585261897380000000000000000000000000000000000000000000000000000000000000000000000000000000, 2584554514260000000000000000000000000000000000000000000000000000000000000000000000000000000, 2583852840000000000000000000000000000000000000000000000000000000000000000000000000000000000, 2583156700130000000000000000000000000000000000000000000000000000000000000000000000000000000, 2582465928650000000000000000000000000000000000000000000000000000000000000000000000000000000, 2581780367700000000000000000000000000000000000000000000000000000000000000000000000000000000, 2581099867250000000000000000000000000000000000000000000000000000000000000000000000000000000, 2580424284820000000000000000000000000000000000000000000000000000000000000000000000000000000]),
  (14828056112200, [2849970697290000000000000000000000000000000000000000000000000000000000000000000000000000000, 2913476774140000000000000000000000000000000000000000000000000000000000000000000000000000000, 2943470802810000000000000000000000000000000000000000000000000000000000000000000000000000000, 2960001545660000000000000000000000000000000000000000000000000000000000000000000000000000000, 2968997037200000000000000000000000000000000000000000000000000000000000000000000000000000000, 2973464418620000000000000000000000000000000000000000000000000000000000000000000000000000000, 2975289648960000000000000000000000000000000000000000000000000000000000000000000000000000000, 2975651330630000000000000000000000000000000000000000000000000000000000000000000000000000000, 2975245702420000000000000000000000000000000000000000000000000000000000000000000000000000000, 2974460983190000000000000000000000000000000000000000000000000000000000000000000000000000000, 2973502638610000000000000000000000000000000000000000000000000000000000000000000000000000000, 2972474098170000000000000000000000000000000000000000000000000000000000000000000000000000000, 2971424654300000000000000000000000000000000000000000000000000000000000000000000000000000000, 2970376200680000000000000000000000000000000000000000000000000000000000000000000000000000000, 2969337439940000000000000000000000000000000000000000000000000000000000000000000000000000000, 2968311101190000000000000000000000000000000000000000000000000000000000000000000000000000000, 2967297437510000000000000000000000000000000000000000000000000000000000000000000000000000000, 2966295826060000000000000000000000000000000000000000000000000000000000000000000000000000000, 2965305442970000000000000000000000000000000000000000000000000000000000000000000000000000000, 2964325510830000000000000000000000000000000000000000000000000000000000000000000000000000000, 2963355363300000000000000000000000000000000000000000000000000000000000000000000000000000000, 2962394441060000000000000000000000000000000000000000000000000000000000000000000000000000000, 2961442268690000000000000000000000000000000000000000000000000000000000000000000000000000000, 2960498431480000000000000000000000000000000000000000000000000000000000000000000000000000000, 2959562557980000000000000000000000000000000000000000000000000000000000000000000000000000000, 2958634308440000000000000000000000000000000000000000000000000000000000000000000000000000000, 2957713367850000000000000000000000000000000000000000000000000000000000000000000000000000000, 2956799441920000000000000000000000000000000000000000000000000000000000000000000000000000000, 2955892254870000000000000000000000000000000000000000000000000000000000000000000000000000000, 2954991548100000000000000000000000000000000000000000000000000000000000000000000000000000000, 2954097079190000000000000000000000000000000000000000000000000000000000000000000000000000000, 2953208621060000000000000000000000000000000000000000000000000000000000000000000000000000000, 2952325961080000000000000000000000000000000000000000000000000000000000000000000000000000000, 2951448900190000000000000000000000000000000000000000000000000000000000000000000000000000000, 2950577251940000000000000000000000000000000000000000000000000000000000000000000000000000000, 2949710841530000000000000000000000000000000000000000000000000000000000000000000000000000000, 2948849504860000000000000000000000000000000000000000000000000000000000000000000000000000000, 2947993087670000000000000000000000000000000000000000000000000000000000000000000000000000000, 2947141444710000000000000000000000000000000000000000000000000000000000000000000000000000000, 2946294438920000000000000000000000000000000000000000000000000000000000000000000000000000000]),
  (16932064128300, [3016432688550000000000000000000000000000000000000000000000000000000000000000000000000000000, 3202890376770000000000000000000000000000000000000000000000000000000000000000000000000000000, 3271402408000000000000000000000000000000000000000000000000000000000000000000000000000000000, 3298029644320000000000000000000000000000000000000000000000000000000000000000000000000000000, 3308261795270000000000000000000000000000000000000000000000000000000000000000000000000000000, 3311735190240000000000000000000000000000000000000000000000000000000000000000000000000000000, 3312387692590000000000000000000000000000000000000000000000000000000000000000000000000000000, 3311882944410000000000000000000000000000000000000000000000000000000000000000000000000000000, 3310924396320000000000000000000000000000000000000000000000000000000000000000000000000000000, 3309803296330000000000000000000000000000000000000000000000000000000000000000000000000000000, 3308635502230000000000000000000000000000000000000000000000000000000000000000000000000000000, 3307464176280000000000000000000000000000000000000000000000000000000000000000000000000000000, 3306303605500000000000000000000000000000000000000000000000000000000000000000000000000000000, 3305157336980000000000000000000000000000000000000000000000000000000000000000000000000000000, 3304025343700000000000000000000000000000000000000000000000000000000000000000000000000000000, 3302906662550000000000000000000000000000000000000000000000000000000000000000000000000000000, 3301800254420000000000000000000000000000000000000000000000000000000000000000000000000000000, 3300705218680000000000000000000000000000000000000000000000000000000000000000000000000000000, 3299620803290000000000000000000000000000000000000000000000000000000000000000000000000000000, 3298546368720000000000000000000000000000000000000000000000000000000000000000000000000000000, 3297481353980000000000000000000000000000000000000000000000000000000000000000000000000000000, 3296425254200000000000000000000000000000000000000000000000000000000000000000000000000000000, 3295377607820000000000000000000000000000000000000000000000000000000000000000000000000000000, 3294337989740000000000000000000000000000000000000000000000000000000000000000000000000000000, 3293306007470000000000000000000000000000000000000000000000000000000000000000000000000000000, 3292281298400000000000000000000000000000000000000000000000000000000000000000000000000000000, 3291263527690000000000000000000000000000000000000000000000000000000000000000000000000000000, 3290252386030000000000000000000000000000000000000000000000000000000000000000000000000000000, 3289247587570000000000000000000000000000000000000000000000000000000000000000000000000000000, 3288248867800000000000000000000000000000000000000000000000000000000000000000000000000000000, 3287255981550000000000000000000000000000000000000000000000000000000000000000000000000000000, 3286268701150000000000000000000000000000000000000000000000000000000000000000000000000000000, 3285286814750000000000000000000000000000000000000000000000000000000000000000000000000000000, 3284310124790000000000000000000000000000000000000000000000000000000000000000000000000000000, 3283338446660000000000000000000000000000000000000000000000000000000000000000000000000000000, 3282371607530000000000000000000000000000000000000000000000000000000000000000000000000000000, 3281409445300000000000000000000000000000000000000000000000000000000000000000000000000000000, 3280451807640000000000000000000000000000000000000000000000000000000000000000000000000000000, 3279498551220000000000000000000000000000000000000000000000000000000000000000000000000000000, 3278549540930000000000000000000000000000000000000000000000000000000000000000000000000000000]),
  (19036072144300, [3241540035390000000000000000000000000000000000000000000000000000000000000000000000000000000, 3503224869550000000000000000000000000000000000000000000000000000000000000000000000000000000, 3584005704820000000000000000000000000000000000000000000000000000000000000000000000000000000, 3609442211140000000000000000000000000000000000000000000000000000000000000000000000000000000, 3616981260890000000000000000000000000000000000000000000000000000000000000000000000000000000, 3618563087470000000000000000000000000000000000000000000000000000000000000000000000000000000, 3618164032520000000000000000000000000000000000000000000000000000000000000000000000000000000, 3617129319070000000000000000000000000000000000000000000000000000000000000000000000000000000, 3615909297220000000000000000000000000000000000000000000000000000000000000000000000000000000, 3614649185640000000000000000000000000000000000000000000000000000000000000000000000000000000, 3613392399970000000000000000000000000000000000000000000000000000000000000000000000000000000, 3612149989970000000000000000000000000000000000000000000000000000000000000000000000000000000, 3610923576550000000000000000000000000000000000000000000000000000000000000000000000000000000, 3609712466870000000000000000000000000000000000000000000000000000000000000000000000000000000, 3608515624190000000000000000000000000000000000000000000000000000000000000000000000000000000, 3607332096050000000000000000000000000000000000000000000000000000000000000000000000000000000, 3606161047730000000000000000000000000000000000000000000000000000000000000000000000000000000, 3605001729060000000000000000000000000000000000000000000000000000000000000000000000000000000, 3603853448870000000000000000000000000000000000000000000000000000000000000000000000000000000, 3602715563490000000000000000000000000000000000000000000000000000000000000000000000000000000, 3601587473120000000000000000000000000000000000000000000000000000000000000000000000000000000, 3600468620790000000000000000000000000000000000000000000000000000000000000000000000000000000, 3599358491380000000000000000000000000000000000000000000000000000000000000000000000000000000, 3598256609900000000000000000000000000000000000000000000000000000000000000000000000000000000, 3597162539100000000000000000000000000000000000000000000000000000000000000000000000000000000, 3596075876610000000000000000000000000000000000000000000000000000000000000000000000000000000, 3594996251980000000000000000000000000000000000000000000000000000000000000000000000000000000, 3593923323780000000000000000000000000000000000000000000000000000000000000000000000000000000, 3592856776820000000000000000000000000000000000000000000000000000000000000000000000000000000, 3591796319690000000000000000000000000000000000000000000000000000000000000000000000000000000, 3590741682450000000000000000000000000000000000000000000000000000000000000000000000000000000, 3589692614600000000000000000000000000000000000000000000000000000000000000000000000000000000, 3588648883270000000000000000000000000000000000000000000000000000000000000000000000000000000, 3587610271580000000000000000000000000000000000000000000000000000000000000000000000000000000, 3586576577190000000000000000000000000000000000000000000000000000000000000000000000000000000, 3585547611030000000000000000000000000000000000000000000000000000000000000000000000000000000, 3584523196090000000000000000000000000000000000000000000000000000000000000000000000000000000, 3583503166420000000000000000000000000000000000000000000000000000000000000000000000000000000, 3582487366190000000000000000000000000000000000000000000000000000000000000000000000000000000, 3581475648850000000000000000000000000000000000000000000000000000000000000000000000000000000]),
  (21140080160300, [3513627113880000000000000000000000000000000000000000000000000000000000000000000000000000000, 3800263666750000000000000000000000000000000000000000000000000000000000000000000000000000000, 3874998944330000000000000000000000000000000000000000000000000000000000000000000000000000000, 3894202829050000000000000000000000000000000000000000000000000000000000000000000000000000000, 3898385899060000000000000000000000000000000000000000000000000000000000000000000000000000000, 3898474074910000000000000000000000000000000000000000000000000000000000000000000000000000000, 3897473461180000000000000000000000000000000000000000000000000000000000000000000000000000000, 3896206359200000000000000000000000000000000000000000000000000000000000000000000000000000000, 3894889758980000000000000000000000000000000000000000000000000000000000000000000000000000000, 3893576630940000000000000000000000000000000000000000000000000000000000000000000000000000000, 3892277952310000000000000000000000000000000000000000000000000000000000000000000000000000000, 3890995044110000000000000000000000000000000000000000000000000000000000000000000000000000000, 3889727422190000000000000000000000000000000000000000000000000000000000000000000000000000000, 3888474400400000000000000000000000000000000000000000000000000000000000000000000000000000000, 3887235303850000000000000000000000000000000000000000000000000000000000000000000000000000000, 3886009460060000000000000000000000000000000000000000000000000000000000000000000000000000000, 3884796190640000000000000000000000000000000000000000000000000000000000000000000000000000000, 3883594819990000000000000000000000000000000000000000000000000000000000000000000000000000000, 3882404689080000000000000000000000000000000000000000000000000000000000000000000000000000000, 3881225166770000000000000000000000000000000000000000000000000000000000000000000000000000000, 3880055656710000000000000000000000000000000000000000000000000000000000000000000000000000000, 3878895600450000000000000000000000000000000000000000000000000000000000000000000000000000000, 3877744477770000000000000000000000000000000000000000000000000000000000000000000000000000000, 3876601805670000000000000000000000000000000000000000000000000000000000000000000000000000000, 3875467136290000000000000000000000000000000000000000000000000000000000000000000000000000000, 3874340054640000000000000000000000000000000000000000000000000000000000000000000000000000000, 3873220176110000000000000000000000000000000000000000000000000000000000000000000000000000000, 3872107144070000000000000000000000000000000000000000000000000000000000000000000000000000000, 3871000627540000000000000000000000000000000000000000000000000000000000000000000000000000000, 3869900319070000000000000000000000000000000000000000000000000000000000000000000000000000000, 3868805932660000000000000000000000000000000000000000000000000000000000000000000000000000000, 3867717202000000000000000000000000000000000000000000000000000000000000000000000000000000000, 3866633878740000000000000000000000000000000000000000000000000000000000000000000000000000000, 3865555731010000000000000000000000000000000000000000000000000000000000000000000000000000000, 3864482541960000000000000000000000000000000000000000000000000000000000000000000000000000000, 3863414108580000000000000000000000000000000000000000000000000000000000000000000000000000000, 3862350240540000000000000000000000000000000000000000000000000000000000000000000000000000000, 3861290759150000000000000000000000000000000000000000000000000000000000000000000000000000000, 3860235496410000000000000000000000000000000000000000000000000000000000000000000000000000000, 3859184294240000000000000000000000000000000000000000000000000000000000000000000000000000000]),
  (23244088176400, [3813066734280000000000000000000000000000000000000000000000000000000000000000000000000000000, 4083626880680000000000000000000000000000000000000000000000000000000000000000000000000000000, 4142904981080000000000000000000000000000000000000000000000000000000000000000000000000000000, 4155059756160000000000000000000000000000000000000000000000000000000000000000000000000000000, 4156606720560000000000000000000000000000000000000000000000000000000000000000000000000000000, 4155809680700000000000000000000000000000000000000000000000000000000000000000000000000000000, 4154528743100000000000000000000000000000000000000000000000000000000000000000000000000000000, 4153167504340000000000000000000000000000000000000000000000000000000000000000000000000000000, 4151806822500000000000000000000000000000000000000000000000000000000000000000000000000000000, 4150460662310000000000000000000000000000000000000000000000000000000000000000000000000000000, 4149130766310000000000000000000000000000000000000000000000000000000000000000000000000000000, 4147817047020000000000000000000000000000000000000000000000000000000000000000000000000000000, 4146519135280000000000000000000000000000000000000000000000000000000000000000000000000000000, 4145236510830000000000000000000000000000000000000000000000000000000000000000000000000000000, 4143968523450000000000000000000000000000000000000000000000000000000000000000000000000000000, 4142714439910000000000000000000000000000000000000000000000000000000000000000000000000000000, 4141473494300000000000000000000000000000000000000000000000000000000000000000000000000000000, 4140244925830000000000000000000000000000000000000000000000000000000000000000000000000000000, 4139028002050000000000000000000000000000000000000000000000000000000000000000000000000000000, 4137822031020000000000000000000000000000000000000000000000000000000000000000000000000000000, 4136626366440000000000000000000000000000000000000000000000000000000000000000000000000000000, 4135440408510000000000000000000000000000000000000000000000000000000000000000000000000000000, 4134263602630000000000000000000000000000000000000000000000000000000000000000000000000000000, 4133095436820000000000000000000000000000000000000000000000000000000000000000000000000000000, 4131935438730000000000000000000000000000000000000000000000000000000000000000000000000000000, 4130783172440000000000000000000000000000000000000000000000000000000000000000000000000000000, 4129638235270000000000000000000000000000000000000000000000000000000000000000000000000000000, 4128500254900000000000000000000000000000000000000000000000000000000000000000000000000000000, 4127368886530000000000000000000000000000000000000000000000000000000000000000000000000000000, 4126243810350000000000000000000000000000000000000000000000000000000000000000000000000000000, 4125124729310000000000000000000000000000000000000000000000000000000000000000000000000000000, 4124011366970000000000000000000000000000000000000000000000000000000000000000000000000000000, 4122903465680000000000000000000000000000000000000000000000000000000000000000000000000000000, 4121800784910000000000000000000000000000000000000000000000000000000000000000000000000000000, 4120703099710000000000000000000000000000000000000000000000000000000000000000000000000000000, 4119610199400000000000000000000000000000000000000000000000000000000000000000000000000000000, 4118521886360000000000000000000000000000000000000000000000000000000000000000000000000000000, 4117437974930000000000000000000000000000000000000000000000000000000000000000000000000000000, 4116358290450000000000000000000000000000000000000000000000000000000000000000000000000000000, 4115282668380000000000000000000000000000000000000000000000000000000000000000000000000000000]),
  (25348096192400, [4119990220380000000000000000000000000000000000000000000000000000000000000000000000000000000, 4347528552070000000000000000000000000000000000000000000000000000000000000000000000000000000, 4388900911340000000000000000000000000000000000000000000000000000000000000000000000000000000, 4395280553570000000000000000000000000000000000000000000000000000000000000000000000000000000, 4395202745230000000000000000000000000000000000000000000000000000000000000000000000000000000, 4393999567440000000000000000000000000000000000000000000000000000000000000000000000000000000, 4392626804730000000000000000000000000000000000000000000000000000000000000000000000000000000, 4391241485490000000000000000000000000000000000000000000000000000000000000000000000000000000, 4389866312960000000000000000000000000000000000000000000000000000000000000000000000000000000, 4388504741410000000000000000000000000000000000000000000000000000000000000000000000000000000, 4387157962820000000000000000000000000000000000000000000000000000000000000000000000000000000, 4385826611860000000000000000000000000000000000000000000000000000000000000000000000000000000, 4384510825300000000000000000000000000000000000000000000000000000000000000000000000000000000, 4383210334640000000000000000000000000000000000000000000000000000000000000000000000000000000, 4381924607530000000000000000000000000000000000000000000000000000000000000000000000000000000, 4380652968380000000000000000000000000000000000000000000000000000000000000000000000000000000, 4379394680630000000000000000000000000000000000000000000000000000000000000000000000000000000, 4378148997050000000000000000000000000000000000000000000000000000000000000000000000000000000, 4376915188590000000000000000000000000000000000000000000000000000000000000000000000000000000, 4375692559770000000000000000000000000000000000000000000000000000000000000000000000000000000, 4374480456120000000000000000000000000000000000000000000000000000000000000000000000000000000, 4373278266750000000000000000000000000000000000000000000000000000000000000000000000000000000, 4372085424310000000000000000000000000000000000000000000000000000000000000000000000000000000, 4370901403280000000000000000000000000000000000000000000000000000000000000000000000000000000, 4369725717550000000000000000000000000000000000000000000000000000000000000000000000000000000, 4368557917630000000000000000000000000000000000000000000000000000000000000000000000000000000, 4367397587690000000000000000000000000000000000000000000000000000000000000000000000000000000, 4366244342800000000000000000000000000000000000000000000000000000000000000000000000000000000, 4365097826150000000000000000000000000000000000000000000000000000000000000000000000000000000, 4363957706620000000000000000000000000000000000000000000000000000000000000000000000000000000, 4362823676440000000000000000000000000000000000000000000000000000000000000000000000000000000, 4361695449110000000000000000000000000000000000000000000000000000000000000000000000000000000, 4360572757490000000000000000000000000000000000000000000000000000000000000000000000000000000, 4359455352110000000000000000000000000000000000000000000000000000000000000000000000000000000, 4358342999630000000000000000000000000000000000000000000000000000000000000000000000000000000, 4357235481440000000000000000000000000000000000000000000000000000000000000000000000000000000, 4356132592430000000000000000000000000000000000000000000000000000000000000000000000000000000, 4355034139850000000000000000000000000000000000000000000000000000000000000000000000000000000, 4353939942340000000000000000000000000000000000000000000000000000000000000000000000000000000, 4352849828990000000000000000000000000000000000000000000000000000000000000000000000000000000]),
  (27452104208400, [4418917824230000000000000000000000000000000000000000000000000000000000000000000000000000000, 4590660860490000000000000000000000000000000000000000000000000000000000000000000000000000000, 4615902395910000000000000000000000000000000000000000000000000000000000000000000000000000000, 4618313375420000000000000000000000000000000000000000000000000000000000000000000000000000000, 4617378050630000000000000000000000000000000000000000000000000000000000000000000000000000000, 4616012679340000000000000000000000000000000000000000000000000000000000000000000000000000000, 4614608804220000000000000000000000000000000000000000000000000000000000000000000000000000000, 4613209979960000000000000000000000000000000000000000000000000000000000000000000000000000000, 4611821451490000000000000000000000000000000000000000000000000000000000000000000000000000000, 4610445795190000000000000000000000000000000000000000000000000000000000000000000000000000000, 4609084908610000000000000000000000000000000000000000000000000000000000000000000000000000000, 4607739782720000000000000000000000000000000000000000000000000000000000000000000000000000000, 4606410646360000000000000000000000000000000000000000000000000000000000000000000000000000000, 4605097229560000000000000000000000000000000000000000000000000000000000000000000000000000000, 4603798977600000000000000000000000000000000000000000000000000000000000000000000000000000000, 4602515191830000000000000000000000000000000000000000000000000000000000000000000000000000000, 4601245115010000000000000000000000000000000000000000000000000000000000000000000000000000000, 4599987981000000000000000000000000000000000000000000000000000000000000000000000000000000000, 4598743042690000000000000000000000000000000000000000000000000000000000000000000000000000000, 4597509586940000000000000000000000000000000000000000000000000000000000000000000000000000000, 4596286941730000000000000000000000000000000000000000000000000000000000000000000000000000000, 4595074478740000000000000000000000000000000000000000000000000000000000000000000000000000000, 4593871613290000000000000000000000000000000000000000000000000000000000000000000000000000000, 4592677802760000000000000000000000000000000000000000000000000000000000000000000000000000000, 4591492544250000000000000000000000000000000000000000000000000000000000000000000000000000000, 4590315371830000000000000000000000000000000000000000000000000000000000000000000000000000000, 4589145853790000000000000000000000000000000000000000000000000000000000000000000000000000000, 4587983589830000000000000000000000000000000000000000000000000000000000000000000000000000000, 4586828208440000000000000000000000000000000000000000000000000000000000000000000000000000000, 4585679364440000000000000000000000000000000000000000000000000000000000000000000000000000000, 4584536736690000000000000000000000000000000000000000000000000000000000000000000000000000000, 4583400026050000000000000000000000000000000000000000000000000000000000000000000000000000000, 4582268953440000000000000000000000000000000000000000000000000000000000000000000000000000000, 4581143258120000000000000000000000000000000000000000000000000000000000000000000000000000000, 4580022696180000000000000000000000000000000000000000000000000000000000000000000000000000000, 4578907039080000000000000000000000000000000000000000000000000000000000000000000000000000000, 4577796072410000000000000000000000000000000000000000000000000000000000000000000000000000000, 4576689594710000000000000000000000000000000000000000000000000000000000000000000000000000000, 4575587416460000000000000000000000000000000000000000000000000000000000000000000000000000000, 4574489359130000000000000000000000000000000000000000000000000000000000000000000000000000000]),
  (29556112224400, [4699297993600000000000000000000000000000000000000000000000000000000000000000000000000000000, 4813930561830000000000000000000000000000000000000000000000000000000000000000000000000000000, 4826720719280000000000000000000000000000000000000000000000000000000000000000000000000000000, 4826787430180000000000000000000000000000000000000000000000000000000000000000000000000000000, 4825487954380000000000000000000000000000000000000000000000000000000000000000000000000000000, 4824085205270000000000000000000000000000000000000000000000000000000000000000000000000000000, 4822681542650000000000000000000000000000000000000000000000000000000000000000000000000000000, 4821281674270000000000000000000000000000000000000000000000000000000000000000000000000000000, 4819889203360000000000000000000000000000000000000000000000000000000000000000000000000000000, 4818508106180000000000000000000000000000000000000000000000000000000000000000000000000000000, 4817141063910000000000000000000000000000000000000000000000000000000000000000000000000000000, 4815789425900000000000000000000000000000000000000000000000000000000000000000000000000000000, 4814453615000000000000000000000000000000000000000000000000000000000000000000000000000000000, 4813133488160000000000000000000000000000000000000000000000000000000000000000000000000000000, 4811828579370000000000000000000000000000000000000000000000000000000000000000000000000000000, 4810538251080000000000000000000000000000000000000000000000000000000000000000000000000000000, 4809261785930000000000000000000000000000000000000000000000000000000000000000000000000000000, 4807998441640000000000000000000000000000000000000000000000000000000000000000000000000000000, 4806747483240000000000000000000000000000000000000000000000000000000000000000000000000000000, 4805508201310000000000000000000000000000000000000000000000000000000000000000000000000000000, 4804279921720000000000000000000000000000000000000000000000000000000000000000000000000000000, 4803062010080000000000000000000000000000000000000000000000000000000000000000000000000000000, 4801853873120000000000000000000000000000000000000000000000000000000000000000000000000000000, 4800654958060000000000000000000000000000000000000000000000000000000000000000000000000000000, 4799464751030000000000000000000000000000000000000000000000000000000000000000000000000000000, 4798282774830000000000000000000000000000000000000000000000000000000000000000000000000000000, 4797108586470000000000000000000000000000000000000000000000000000000000000000000000000000000, 4795941774630000000000000000000000000000000000000000000000000000000000000000000000000000000, 4794781957190000000000000000000000000000000000000000000000000000000000000000000000000000000, 4793628778800000000000000000000000000000000000000000000000000000000000000000000000000000000, 4792481908700000000000000000000000000000000000000000000000000000000000000000000000000000000, 4791341038610000000000000000000000000000000000000000000000000000000000000000000000000000000, 4790205880890000000000000000000000000000000000000000000000000000000000000000000000000000000, 4789076166720000000000000000000000000000000000000000000000000000000000000000000000000000000, 4787951644590000000000000000000000000000000000000000000000000000000000000000000000000000000, 4786832078840000000000000000000000000000000000000000000000000000000000000000000000000000000, 4785717248370000000000000000000000000000000000000000000000000000000000000000000000000000000, 4784606945440000000000000000000000000000000000000000000000000000000000000000000000000000000, 4783500974630000000000000000000000000000000000000000000000000000000000000000000000000000000, 4782399151850000000000000000000000000000000000000000000000000000000000000000000000000000000]),
  (31660120240500, [4955703297590000000000000000000000000000000000000000000000000000000000000000000000000000000, 5019797938750000000000000000000000000000000000000000000000000000000000000000000000000000000, 5024163583140000000000000000000000000000000000000000000000000000000000000000000000000000000, 5023060320120000000000000000000000000000000000000000000000000000000000000000000000000000000, 5021650113080000000000000000000000000000000000000000000000000000000000000000000000000000000, 5020247788180000000000000000000000000000000000000000000000000000000000000000000000000000000, 5018843686140000000000000000000000000000000000000000000000000000000000000000000000000000000, 5017438244260000000000000000000000000000000000000000000000000000000000000000000000000000000, 5016038222110000000000000000000000000000000000000000000000000000000000000000000000000000000, 5014649175380000000000000000000000000000000000000000000000000000000000000000000000000000000, 5013274391550000000000000000000000000000000000000000000000000000000000000000000000000000000, 5011915454900000000000000000000000000000000000000000000000000000000000000000000000000000000, 5010572873750000000000000000000000000000000000000000000000000000000000000000000000000000000, 5009246518790000000000000000000000000000000000000000000000000000000000000000000000000000000, 5007935900400000000000000000000000000000000000000000000000000000000000000000000000000000000, 5006640339060000000000000000000000000000000000000000000000000000000000000000000000000000000, 5005359068470000000000000000000000000000000000000000000000000000000000000000000000000000000, 5004091296960000000000000000000000000000000000000000000000000000000000000000000000000000000, 5002836243200000000000000000000000000000000000000000000000000000000000000000000000000000000, 5001593156130000000000000000000000000000000000000000000000000000000000000000000000000000000, 5000361325090000000000000000000000000000000000000000000000000000000000000000000000000000000, 4999140084260000000000000000000000000000000000000000000000000000000000000000000000000000000, 4997928813520000000000000000000000000000000000000000000000000000000000000000000000000000000, 4996726937310000000000000000000000000000000000000000000000000000000000000000000000000000000, 4995533922450000000000000000000000000000000000000000000000000000000000000000000000000000000, 4994349275340000000000000000000000000000000000000000000000000000000000000000000000000000000, 4993172538990000000000000000000000000000000000000000000000000000000000000000000000000000000, 4992003290060000000000000000000000000000000000000000000000000000000000000000000000000000000, 4990841135990000000000000000000000000000000000000000000000000000000000000000000000000000000, 4989685712330000000000000000000000000000000000000000000000000000000000000000000000000000000, 4988536680230000000000000000000000000000000000000000000000000000000000000000000000000000000, 4987393724200000000000000000000000000000000000000000000000000000000000000000000000000000000, 4986256550040000000000000000000000000000000000000000000000000000000000000000000000000000000, 4985124882970000000000000000000000000000000000000000000000000000000000000000000000000000000, 4983998465940000000000000000000000000000000000000000000000000000000000000000000000000000000, 4982877058160000000000000000000000000000000000000000000000000000000000000000000000000000000, 4981760433680000000000000000000000000000000000000000000000000000000000000000000000000000000, 4980648380190000000000000000000000000000000000000000000000000000000000000000000000000000000, 4979540697950000000000000000000000000000000000000000000000000000000000000000000000000000000, 4978437198720000000000000000000000000000000000000000000000000000000000000000000000000000000]),
  (33764128256500, [5187431823120000000000000000000000000000000000000000000000000000000000000000000000000000000, 5211465548580000000000000000000000000000000000000000000000000000000000000000000000000000000, 5210729356990000000000000000000000000000000000000000000000000000000000000000000000000000000, 5209097074170000000000000000000000000000000000000000000000000000000000000000000000000000000, 5207634780030000000000000000000000000000000000000000000000000000000000000000000000000000000, 5206207937260000000000000000000000000000000000000000000000000000000000000000000000000000000, 5204778777350000000000000000000000000000000000000000000000000000000000000000000000000000000, 5203350527820000000000000000000000000000000000000000000000000000000000000000000000000000000, 5201930868250000000000000000000000000000000000000000000000000000000000000000000000000000000, 5200525036950000000000000000000000000000000000000000000000000000000000000000000000000000000, 5199135814270000000000000000000000000000000000000000000000000000000000000000000000000000000, 5197764345860000000000000000000000000000000000000000000000000000000000000000000000000000000, 5196410792190000000000000000000000000000000000000000000000000000000000000000000000000000000, 5195074750180000000000000000000000000000000000000000000000000000000000000000000000000000000, 5193755513710000000000000000000000000000000000000000000000000000000000000000000000000000000, 5192452231170000000000000000000000000000000000000000000000000000000000000000000000000000000, 5191163998850000000000000000000000000000000000000000000000000000000000000000000000000000000, 5189889914850000000000000000000000000000000000000000000000000000000000000000000000000000000, 5188629108910000000000000000000000000000000000000000000000000000000000000000000000000000000, 5187380757730000000000000000000000000000000000000000000000000000000000000000000000000000000, 5186144091590000000000000000000000000000000000000000000000000000000000000000000000000000000, 5184918395920000000000000000000000000000000000000000000000000000000000000000000000000000000, 5183703010040000000000000000000000000000000000000000000000000000000000000000000000000000000, 5182497324300000000000000000000000000000000000000000000000000000000000000000000000000000000, 5181300776570000000000000000000000000000000000000000000000000000000000000000000000000000000, 5180112848400000000000000000000000000000000000000000000000000000000000000000000000000000000, 5178933061240000000000000000000000000000000000000000000000000000000000000000000000000000000, 5177760972890000000000000000000000000000000000000000000000000000000000000000000000000000000, 5176596174080000000000000000000000000000000000000000000000000000000000000000000000000000000, 5175438285430000000000000000000000000000000000000000000000000000000000000000000000000000000, 5174286954660000000000000000000000000000000000000000000000000000000000000000000000000000000, 5173141854070000000000000000000000000000000000000000000000000000000000000000000000000000000, 5172002678320000000000000000000000000000000000000000000000000000000000000000000000000000000, 5170869142350000000000000000000000000000000000000000000000000000000000000000000000000000000, 5169740979630000000000000000000000000000000000000000000000000000000000000000000000000000000, 5168617940530000000000000000000000000000000000000000000000000000000000000000000000000000000, 5167499790870000000000000000000000000000000000000000000000000000000000000000000000000000000, 5166386310630000000000000000000000000000000000000000000000000000000000000000000000000000000, 5165277292830000000000000000000000000000000000000000000000000000000000000000000000000000000, 5164172542410000000000000000000000000000000000000000000000000000000000000000000000000000000]),
  (35868136272500, [5395056731900000000000000000000000000000000000000000000000000000000000000000000000000000000, 5390915429630000000000000000000000000000000000000000000000000000000000000000000000000000000, 5387695279610000000000000000000000000000000000000000000000000000000000000000000000000000000, 5385979591400000000000000000000000000000000000000000000000000000000000000000000000000000000, 5384552984470000000000000000000000000000000000000000000000000000000000000000000000000000000, 5383139559130000000000000000000000000000000000000000000000000000000000000000000000000000000, 5381711790730000000000000000000000000000000000000000000000000000000000000000000000000000000, 5380279634990000000000000000000000000000000000000000000000000000000000000000000000000000000, 5378853227850000000000000000000000000000000000000000000000000000000000000000000000000000000, 5377438993070000000000000000000000000000000000000000000000000000000000000000000000000000000, 5376040456860000000000000000000000000000000000000000000000000000000000000000000000000000000, 5374659269600000000000000000000000000000000000000000000000000000000000000000000000000000000, 5373295932010000000000000000000000000000000000000000000000000000000000000000000000000000000, 5371950265830000000000000000000000000000000000000000000000000000000000000000000000000000000, 5370621709460000000000000000000000000000000000000000000000000000000000000000000000000000000, 5369309500380000000000000000000000000000000000000000000000000000000000000000000000000000000, 5368012785800000000000000000000000000000000000000000000000000000000000000000000000000000000, 5366730688650000000000000000000000000000000000000000000000000000000000000000000000000000000, 5365462345720000000000000000000000000000000000000000000000000000000000000000000000000000000, 5364206928820000000000000000000000000000000000000000000000000000000000000000000000000000000, 5362963655530000000000000000000000000000000000000000000000000000000000000000000000000000000, 5361731793590000000000000000000000000000000000000000000000000000000000000000000000000000000, 5360510661650000000000000000000000000000000000000000000000000000000000000000000000000000000, 5359299627880000000000000000000000000000000000000000000000000000000000000000000000000000000, 5358098107360000000000000000000000000000000000000000000000000000000000000000000000000000000, 5356905558920000000000000000000000000000000000000000000000000000000000000000000000000000000, 5355721481900000000000000000000000000000000000000000000000000000000000000000000000000000000, 5354545412710000000000000000000000000000000000000000000000000000000000000000000000000000000, 5353376921730000000000000000000000000000000000000000000000000000000000000000000000000000000, 5352215610290000000000000000000000000000000000000000000000000000000000000000000000000000000, 5351061107950000000000000000000000000000000000000000000000000000000000000000000000000000000, 5349913069930000000000000000000000000000000000000000000000000000000000000000000000000000000, 5348771174920000000000000000000000000000000000000000000000000000000000000000000000000000000, 5347635122900000000000000000000000000000000000000000000000000000000000000000000000000000000, 5346504633410000000000000000000000000000000000000000000000000000000000000000000000000000000, 5345379443790000000000000000000000000000000000000000000000000000000000000000000000000000000, 5344259307700000000000000000000000000000000000000000000000000000000000000000000000000000000, 5343143993800000000000000000000000000000000000000000000000000000000000000000000000000000000, 5342033284480000000000000000000000000000000000000000000000000000000000000000000000000000000, 5340926974840000000000000000000000000000000000000000000000000000000000000000000000000000000]),
  (37972144288600, [5582220424060000000000000000000000000000000000000000000000000000000000000000000000000000000, 5560846735340000000000000000000000000000000000000000000000000000000000000000000000000000000, 5556759801780000000000000000000000000000000000000000000000000000000000000000000000000000000, 5555090164970000000000000000000000000000000000000000000000000000000000000000000000000000000, 5553674980260000000000000000000000000000000000000000000000000000000000000000000000000000000, 5552251348310000000000000000000000000000000000000000000000000000000000000000000000000000000, 5550809486190000000000000000000000000000000000000000000000000000000000000000000000000000000, 5549363256510000000000000000000000000000000000000000000000000000000000000000000000000000000, 5547923416070000000000000000000000000000000000000000000000000000000000000000000000000000000, 5546496456190000000000000000000000000000000000000000000000000000000000000000000000000000000, 5545085886710000000000000000000000000000000000000000000000000000000000000000000000000000000, 5543693329570000000000000000000000000000000000000000000000000000000000000000000000000000000, 5542319257290000000000000000000000000000000000000000000000000000000000000000000000000000000, 5540963465520000000000000000000000000000000000000000000000000000000000000000000000000000000, 5539625368240000000000000000000000000000000000000000000000000000000000000000000000000000000, 5538304179150000000000000000000000000000000000000000000000000000000000000000000000000000000, 5536999021710000000000000000000000000000000000000000000000000000000000000000000000000000000, 5535708994720000000000000000000000000000000000000000000000000000000000000000000000000000000, 5534433210540000000000000000000000000000000000000000000000000000000000000000000000000000000, 5533170816360000000000000000000000000000000000000000000000000000000000000000000000000000000, 5531921005150000000000000000000000000000000000000000000000000000000000000000000000000000000, 5530683020410000000000000000000000000000000000000000000000000000000000000000000000000000000, 5529456157080000000000000000000000000000000000000000000000000000000000000000000000000000000, 5528239760340000000000000000000000000000000000000000000000000000000000000000000000000000000, 5527033223190000000000000000000000000000000000000000000000000000000000000000000000000000000, 5525835983370000000000000000000000000000000000000000000000000000000000000000000000000000000, 5524647520150000000000000000000000000000000000000000000000000000000000000000000000000000000, 5523467350960000000000000000000000000000000000000000000000000000000000000000000000000000000, 5522295028290000000000000000000000000000000000000000000000000000000000000000000000000000000, 5521130136620000000000000000000000000000000000000000000000000000000000000000000000000000000, 5519972289680000000000000000000000000000000000000000000000000000000000000000000000000000000, 5518821127900000000000000000000000000000000000000000000000000000000000000000000000000000000, 5517676316060000000000000000000000000000000000000000000000000000000000000000000000000000000, 5516537541180000000000000000000000000000000000000000000000000000000000000000000000000000000, 5515404510640000000000000000000000000000000000000000000000000000000000000000000000000000000, 5514276950440000000000000000000000000000000000000000000000000000000000000000000000000000000, 5513154603630000000000000000000000000000000000000000000000000000000000000000000000000000000, 5512037228940000000000000000000000000000000000000000000000000000000000000000000000000000000, 5510924599520000000000000000000000000000000000000000000000000000000000000000000000000000000, 5509816501750000000000000000000000000000000000000000000000000000000000000000000000000000000]),
  (40076152304600, [5752598144030000000000000000000000000000000000000000000000000000000000000000000000000000000, 5722866373800000000000000000000000000000000000000000000000000000000000000000000000000000000, 5718810264770000000000000000000000000000000000000000000000000000000000000000000000000000000, 5717223518020000000000000000000000000000000000000000000000000000000000000000000000000000000, 5715813631590000000000000000000000000000000000000000000000000000000000000000000000000000000, 5714381171740000000000000000000000000000000000000000000000000000000000000000000000000000000, 5712929463260000000000000000000000000000000000000000000000000000000000000000000000000000000, 5711473949670000000000000000000000000000000000000000000000000000000000000000000000000000000, 5710025464740000000000000000000000000000000000000000000000000000000000000000000000000000000, 5708590447570000000000000000000000000000000000000000000000000000000000000000000000000000000, 5707172348740000000000000000000000000000000000000000000000000000000000000000000000000000000, 5705772731670000000000000000000000000000000000000000000000000000000000000000000000000000000, 5704392014720000000000000000000000000000000000000000000000000000000000000000000000000000000, 5703029946210000000000000000000000000000000000000000000000000000000000000000000000000000000, 5701685900500000000000000000000000000000000000000000000000000000000000000000000000000000000, 5700359059060000000000000000000000000000000000000000000000000000000000000000000000000000000, 5699048519510000000000000000000000000000000000000000000000000000000000000000000000000000000, 5697753360080000000000000000000000000000000000000000000000000000000000000000000000000000000, 5696472676640000000000000000000000000000000000000000000000000000000000000000000000000000000, 5695205602990000000000000000000000000000000000000000000000000000000000000000000000000000000, 5693951320980000000000000000000000000000000000000000000000000000000000000000000000000000000, 5692709064600000000000000000000000000000000000000000000000000000000000000000000000000000000, 5691478120380000000000000000000000000000000000000000000000000000000000000000000000000000000, 5690257825910000000000000000000000000000000000000000000000000000000000000000000000000000000, 5689047567070000000000000000000000000000000000000000000000000000000000000000000000000000000, 5687846774870000000000000000000000000000000000000000000000000000000000000000000000000000000, 5686654922080000000000000000000000000000000000000000000000000000000000000000000000000000000, 5685471519850000000000000000000000000000000000000000000000000000000000000000000000000000000, 5684296114520000000000000000000000000000000000000000000000000000000000000000000000000000000, 5683128284600000000000000000000000000000000000000000000000000000000000000000000000000000000, 5681967637960000000000000000000000000000000000000000000000000000000000000000000000000000000, 5680813809360000000000000000000000000000000000000000000000000000000000000000000000000000000, 5679666458030000000000000000000000000000000000000000000000000000000000000000000000000000000, 5678525265660000000000000000000000000000000000000000000000000000000000000000000000000000000, 5677389934430000000000000000000000000000000000000000000000000000000000000000000000000000000, 5676260185350000000000000000000000000000000000000000000000000000000000000000000000000000000, 5675135756660000000000000000000000000000000000000000000000000000000000000000000000000000000, 5674016402460000000000000000000000000000000000000000000000000000000000000000000000000000000, 5672901891450000000000000000000000000000000000000000000000000000000000000000000000000000000, 5671792005770000000000000000000000000000000000000000000000000000000000000000000000000000000]),
  (42180160320600, [5909494447180000000000000000000000000000000000000000000000000000000000000000000000000000000, 5878109546570000000000000000000000000000000000000000000000000000000000000000000000000000000, 5874586448310000000000000000000000000000000000000000000000000000000000000000000000000000000, 5873122139400000000000000000000000000000000000000000000000000000000000000000000000000000000, 5871741887810000000000000000000000000000000000000000000000000000000000000000000000000000000, 5870322097090000000000000000000000000000000000000000000000000000000000000000000000000000000, 5868877593770000000000000000000000000000000000000000000000000000000000000000000000000000000, 5867426171700000000000000000000000000000000000000000000000000000000000000000000000000000000, 5865979682420000000000000000000000000000000000000000000000000000000000000000000000000000000, 5864545189290000000000000000000000000000000000000000000000000000000000000000000000000000000, 5863126555930000000000000000000000000000000000000000000000000000000000000000000000000000000, 5861725630480000000000000000000000000000000000000000000000000000000000000000000000000000000, 5860343035420000000000000000000000000000000000000000000000000000000000000000000000000000000, 5858978670540000000000000000000000000000000000000000000000000000000000000000000000000000000, 5857632025340000000000000000000000000000000000000000000000000000000000000000000000000000000, 5856302370200000000000000000000000000000000000000000000000000000000000000000000000000000000, 5854988871940000000000000000000000000000000000000000000000000000000000000000000000000000000, 5853690662820000000000000000000000000000000000000000000000000000000000000000000000000000000, 5852406880770000000000000000000000000000000000000000000000000000000000000000000000000000000, 5851136692220000000000000000000000000000000000000000000000000000000000000000000000000000000, 5849879304140000000000000000000000000000000000000000000000000000000000000000000000000000000, 5848633969690000000000000000000000000000000000000000000000000000000000000000000000000000000, 5847399989870000000000000000000000000000000000000000000000000000000000000000000000000000000, 5846176712950000000000000000000000000000000000000000000000000000000000000000000000000000000, 5844963532630000000000000000000000000000000000000000000000000000000000000000000000000000000, 5843759885410000000000000000000000000000000000000000000000000000000000000000000000000000000, 5842565247800000000000000000000000000000000000000000000000000000000000000000000000000000000, 5841379133320000000000000000000000000000000000000000000000000000000000000000000000000000000, 5840201089620000000000000000000000000000000000000000000000000000000000000000000000000000000, 5839030695720000000000000000000000000000000000000000000000000000000000000000000000000000000, 5837867559450000000000000000000000000000000000000000000000000000000000000000000000000000000, 5836711315020000000000000000000000000000000000000000000000000000000000000000000000000000000, 5835561620860000000000000000000000000000000000000000000000000000000000000000000000000000000, 5834418157550000000000000000000000000000000000000000000000000000000000000000000000000000000, 5833280626070000000000000000000000000000000000000000000000000000000000000000000000000000000, 5832148746040000000000000000000000000000000000000000000000000000000000000000000000000000000, 5831022254300000000000000000000000000000000000000000000000000000000000000000000000000000000, 5829900903480000000000000000000000000000000000000000000000000000000000000000000000000000000, 5828784460780000000000000000000000000000000000000000000000000000000000000000000000000000000, 5827672706820000000000000000000000000000000000000000000000000000000000000000000000000000000]),
  (44284168336700, [6057167207690000000000000000000000000000000000000000000000000000000000000000000000000000000, 6028185492730000000000000000000000000000000000000000000000000000000000000000000000000000000, 6025211182380000000000000000000000000000000000000000000000000000000000000000000000000000000, 6023787309450000000000000000000000000000000000000000000000000000000000000000000000000000000, 6022395628330000000000000000000000000000000000000000000000000000000000000000000000000000000, 6020964441570000000000000000000000000000000000000000000000000000000000000000000000000000000, 6019510929530000000000000000000000000000000000000000000000000000000000000000000000000000000, 6018051882210000000000000000000000000000000000000000000000000000000000000000000000000000000, 6016598507460000000000000000000000000000000000000000000000000000000000000000000000000000000, 6015157548480000000000000000000000000000000000000000000000000000000000000000000000000000000, 6013732719870000000000000000000000000000000000000000000000000000000000000000000000000000000, 6012325807280000000000000000000000000000000000000000000000000000000000000000000000000000000, 6010937412620000000000000000000000000000000000000000000000000000000000000000000000000000000, 6009567433420000000000000000000000000000000000000000000000000000000000000000000000000000000, 6008215363060000000000000000000000000000000000000000000000000000000000000000000000000000000, 6006880476090000000000000000000000000000000000000000000000000000000000000000000000000000000, 6005561941410000000000000000000000000000000000000000000000000000000000000000000000000000000, 6004258890420000000000000000000000000000000000000000000000000000000000000000000000000000000, 6002970457520000000000000000000000000000000000000000000000000000000000000000000000000000000, 6001695803400000000000000000000000000000000000000000000000000000000000000000000000000000000, 6000434127690000000000000000000000000000000000000000000000000000000000000000000000000000000, 5999184675170000000000000000000000000000000000000000000000000000000000000000000000000000000, 5997946737930000000000000000000000000000000000000000000000000000000000000000000000000000000, 5996719655220000000000000000000000000000000000000000000000000000000000000000000000000000000, 5995502811780000000000000000000000000000000000000000000000000000000000000000000000000000000, 5994295635570000000000000000000000000000000000000000000000000000000000000000000000000000000, 5993097594970000000000000000000000000000000000000000000000000000000000000000000000000000000, 5991908195950000000000000000000000000000000000000000000000000000000000000000000000000000000, 5990726979160000000000000000000000000000000000000000000000000000000000000000000000000000000, 5989553517240000000000000000000000000000000000000000000000000000000000000000000000000000000, 5988387412180000000000000000000000000000000000000000000000000000000000000000000000000000000, 5987228292920000000000000000000000000000000000000000000000000000000000000000000000000000000, 5986075813080000000000000000000000000000000000000000000000000000000000000000000000000000000, 5984929648940000000000000000000000000000000000000000000000000000000000000000000000000000000, 5983789497530000000000000000000000000000000000000000000000000000000000000000000000000000000, 5982655074960000000000000000000000000000000000000000000000000000000000000000000000000000000, 5981526114840000000000000000000000000000000000000000000000000000000000000000000000000000000, 5980402366860000000000000000000000000000000000000000000000000000000000000000000000000000000, 5979283595560000000000000000000000000000000000000000000000000000000000000000000000000000000, 5978169579090000000000000000000000000000000000000000000000000000000000000000000000000000000]),
  (46388176352700, [6197785836130000000000000000000000000000000000000000000000000000000000000000000000000000000, 6173577338200000000000000000000000000000000000000000000000000000000000000000000000000000000, 6171155026170000000000000000000000000000000000000000000000000000000000000000000000000000000, 6169771487820000000000000000000000000000000000000000000000000000000000000000000000000000000, 6168372848600000000000000000000000000000000000000000000000000000000000000000000000000000000, 6166928859890000000000000000000000000000000000000000000000000000000000000000000000000000000, 6165461054750000000000000000000000000000000000000000000000000000000000000000000000000000000, 6163987475680000000000000000000000000000000000000000000000000000000000000000000000000000000, 6162519959950000000000000000000000000000000000000000000000000000000000000000000000000000000, 6161065564900000000000000000000000000000000000000000000000000000000000000000000000000000000, 6159628139670000000000000000000000000000000000000000000000000000000000000000000000000000000, 6158209503540000000000000000000000000000000000000000000000000000000000000000000000000000000, 6156810236730000000000000000000000000000000000000000000000000000000000000000000000000000000, 6155430186240000000000000000000000000000000000000000000000000000000000000000000000000000000, 6154068781780000000000000000000000000000000000000000000000000000000000000000000000000000000, 6152725230210000000000000000000000000000000000000000000000000000000000000000000000000000000, 6151398633900000000000000000000000000000000000000000000000000000000000000000000000000000000, 6150088061790000000000000000000000000000000000000000000000000000000000000000000000000000000, 6148792591200000000000000000000000000000000000000000000000000000000000000000000000000000000, 6147511331550000000000000000000000000000000000000000000000000000000000000000000000000000000, 6146243437040000000000000000000000000000000000000000000000000000000000000000000000000000000, 6144988112460000000000000000000000000000000000000000000000000000000000000000000000000000000, 6143744614880000000000000000000000000000000000000000000000000000000000000000000000000000000, 6142512252940000000000000000000000000000000000000000000000000000000000000000000000000000000, 6141290384720000000000000000000000000000000000000000000000000000000000000000000000000000000, 6140078414920000000000000000000000000000000000000000000000000000000000000000000000000000000, 6138875791610000000000000000000000000000000000000000000000000000000000000000000000000000000, 6137682002980000000000000000000000000000000000000000000000000000000000000000000000000000000, 6136496574140000000000000000000000000000000000000000000000000000000000000000000000000000000, 6135319064050000000000000000000000000000000000000000000000000000000000000000000000000000000, 6134149062670000000000000000000000000000000000000000000000000000000000000000000000000000000, 6132986188270000000000000000000000000000000000000000000000000000000000000000000000000000000, 6131830085030000000000000000000000000000000000000000000000000000000000000000000000000000000, 6130680420810000000000000000000000000000000000000000000000000000000000000000000000000000000, 6129536885130000000000000000000000000000000000000000000000000000000000000000000000000000000, 6128399187330000000000000000000000000000000000000000000000000000000000000000000000000000000, 6127267054960000000000000000000000000000000000000000000000000000000000000000000000000000000, 6126140232200000000000000000000000000000000000000000000000000000000000000000000000000000000, 6125018478570000000000000000000000000000000000000000000000000000000000000000000000000000000, 6123901567700000000000000000000000000000000000000000000000000000000000000000000000000000000]),
  (48492184368700, [6333638268560000000000000000000000000000000000000000000000000000000000000000000000000000000, 6314922501160000000000000000000000000000000000000000000000000000000000000000000000000000000, 6312907287650000000000000000000000000000000000000000000000000000000000000000000000000000000, 6311535559850000000000000000000000000000000000000000000000000000000000000000000000000000000, 6310126271910000000000000000000000000000000000000000000000000000000000000000000000000000000, 6308670638190000000000000000000000000000000000000000000000000000000000000000000000000000000, 6307191023010000000000000000000000000000000000000000000000000000000000000000000000000000000, 6305705638940000000000000000000000000000000000000000000000000000000000000000000000000000000, 6304226500640000000000000000000000000000000000000000000000000000000000000000000000000000000, 6302760802280000000000000000000000000000000000000000000000000000000000000000000000000000000, 6301312480080000000000000000000000000000000000000000000000000000000000000000000000000000000, 6299883398900000000000000000000000000000000000000000000000000000000000000000000000000000000, 6298474154570000000000000000000000000000000000000000000000000000000000000000000000000000000, 6297084590050000000000000000000000000000000000000000000000000000000000000000000000000000000, 6295714119150000000000000000000000000000000000000000000000000000000000000000000000000000000, 6294361926550000000000000000000000000000000000000000000000000000000000000000000000000000000, 6293027089710000000000000000000000000000000000000000000000000000000000000000000000000000000, 6291708652130000000000000000000000000000000000000000000000000000000000000000000000000000000, 6290405666440000000000000000000000000000000000000000000000000000000000000000000000000000000, 6289117218750000000000000000000000000000000000000000000000000000000000000000000000000000000, 6287842441640000000000000000000000000000000000000000000000000000000000000000000000000000000, 6286580519950000000000000000000000000000000000000000000000000000000000000000000000000000000, 6285330692490000000000000000000000000000000000000000000000000000000000000000000000000000000, 6284092251190000000000000000000000000000000000000000000000000000000000000000000000000000000, 6282864538820000000000000000000000000000000000000000000000000000000000000000000000000000000, 6281646946000000000000000000000000000000000000000000000000000000000000000000000000000000000, 6280438907900000000000000000000000000000000000000000000000000000000000000000000000000000000, 6279239900780000000000000000000000000000000000000000000000000000000000000000000000000000000, 6278049438770000000000000000000000000000000000000000000000000000000000000000000000000000000, 6276867070610000000000000000000000000000000000000000000000000000000000000000000000000000000, 6275692376790000000000000000000000000000000000000000000000000000000000000000000000000000000, 6274524966800000000000000000000000000000000000000000000000000000000000000000000000000000000, 6273364476610000000000000000000000000000000000000000000000000000000000000000000000000000000, 6272210566430000000000000000000000000000000000000000000000000000000000000000000000000000000, 6271062918620000000000000000000000000000000000000000000000000000000000000000000000000000000, 6269921235860000000000000000000000000000000000000000000000000000000000000000000000000000000, 6268785239400000000000000000000000000000000000000000000000000000000000000000000000000000000, 6267654667560000000000000000000000000000000000000000000000000000000000000000000000000000000, 6266529274330000000000000000000000000000000000000000000000000000000000000000000000000000000, 6265408828140000000000000000000000000000000000000000000000000000000000000000000000000000000]),
  (50596192384800, [6466004715790000000000000000000000000000000000000000000000000000000000000000000000000000000, 6452579213020000000000000000000000000000000000000000000000000000000000000000000000000000000, 6450858523000000000000000000000000000000000000000000000000000000000000000000000000000000000, 6449499395230000000000000000000000000000000000000000000000000000000000000000000000000000000, 6448089002260000000000000000000000000000000000000000000000000000000000000000000000000000000, 6446630009770000000000000000000000000000000000000000000000000000000000000000000000000000000, 6445145563690000000000000000000000000000000000000000000000000000000000000000000000000000000, 6443654344500000000000000000000000000000000000000000000000000000000000000000000000000000000, 6442168702890000000000000000000000000000000000000000000000000000000000000000000000000000000, 6440696061090000000000000000000000000000000000000000000000000000000000000000000000000000000, 6439240512080000000000000000000000000000000000000000000000000000000000000000000000000000000, 6437804032430000000000000000000000000000000000000000000000000000000000000000000000000000000, 6436387300580000000000000000000000000000000000000000000000000000000000000000000000000000000, 6434990222500000000000000000000000000000000000000000000000000000000000000000000000000000000, 6433612261100000000000000000000000000000000000000000000000000000000000000000000000000000000, 6432252639670000000000000000000000000000000000000000000000000000000000000000000000000000000, 6430910466060000000000000000000000000000000000000000000000000000000000000000000000000000000, 6429584807440000000000000000000000000000000000000000000000000000000000000000000000000000000, 6428274734610000000000000000000000000000000000000000000000000000000000000000000000000000000, 6426979347240000000000000000000000000000000000000000000000000000000000000000000000000000000, 6425697787610000000000000000000000000000000000000000000000000000000000000000000000000000000, 6424429247100000000000000000000000000000000000000000000000000000000000000000000000000000000, 6423172968440000000000000000000000000000000000000000000000000000000000000000000000000000000, 6421928245330000000000000000000000000000000000000000000000000000000000000000000000000000000, 6420694420590000000000000000000000000000000000000000000000000000000000000000000000000000000, 6419470883510000000000000000000000000000000000000000000000000000000000000000000000000000000, 6418257066840000000000000000000000000000000000000000000000000000000000000000000000000000000, 6417052443620000000000000000000000000000000000000000000000000000000000000000000000000000000, 6415856524060000000000000000000000000000000000000000000000000000000000000000000000000000000, 6414668852600000000000000000000000000000000000000000000000000000000000000000000000000000000, 6413489005040000000000000000000000000000000000000000000000000000000000000000000000000000000, 6412316585990000000000000000000000000000000000000000000000000000000000000000000000000000000, 6411151226430000000000000000000000000000000000000000000000000000000000000000000000000000000, 6409992581520000000000000000000000000000000000000000000000000000000000000000000000000000000, 6408840328560000000000000000000000000000000000000000000000000000000000000000000000000000000, 6407694165230000000000000000000000000000000000000000000000000000000000000000000000000000000, 6406553807860000000000000000000000000000000000000000000000000000000000000000000000000000000, 6405418989960000000000000000000000000000000000000000000000000000000000000000000000000000000, 6404289460830000000000000000000000000000000000000000000000000000000000000000000000000000000, 6403164984360000000000000000000000000000000000000000000000000000000000000000000000000000000])]
noncomputable def ttSpec1 : List (Nat × List Nat) := [
  (52700200400800, [6595953617870000000000000000000000000000000000000000000000000000000000000000000000000000000, 6587046429250000000000000000000000000000000000000000000000000000000000000000000000000000000, 6585514591930000000000000000000000000000000000000000000000000000000000000000000000000000000, 6584160560150000000000000000000000000000000000000000000000000000000000000000000000000000000, 6582746413890000000000000000000000000000000000000000000000000000000000000000000000000000000, 6581281031120000000000000000000000000000000000000000000000000000000000000000000000000000000, 6579788667220000000000000000000000000000000000000000000000000000000000000000000000000000000, 6578288733950000000000000000000000000000000000000000000000000000000000000000000000000000000, 6576794033620000000000000000000000000000000000000000000000000000000000000000000000000000000, 6575312251930000000000000000000000000000000000000000000000000000000000000000000000000000000, 6573847630460000000000000000000000000000000000000000000000000000000000000000000000000000000, 6572402226830000000000000000000000000000000000000000000000000000000000000000000000000000000, 6570976761790000000000000000000000000000000000000000000000000000000000000000000000000000000, 6569571161760000000000000000000000000000000000000000000000000000000000000000000000000000000, 6568184897880000000000000000000000000000000000000000000000000000000000000000000000000000000, 6566817194890000000000000000000000000000000000000000000000000000000000000000000000000000000, 6565467158390000000000000000000000000000000000000000000000000000000000000000000000000000000, 6564133851310000000000000000000000000000000000000000000000000000000000000000000000000000000, 6562816339130000000000000000000000000000000000000000000000000000000000000000000000000000000, 6561513715690000000000000000000000000000000000000000000000000000000000000000000000000000000, 6560225117140000000000000000000000000000000000000000000000000000000000000000000000000000000, 6558949728650000000000000000000000000000000000000000000000000000000000000000000000000000000, 6557686786740000000000000000000000000000000000000000000000000000000000000000000000000000000, 6556435578920000000000000000000000000000000000000000000000000000000000000000000000000000000, 6555195441880000000000000000000000000000000000000000000000000000000000000000000000000000000, 6553965758900000000000000000000000000000000000000000000000000000000000000000000000000000000, 6552745956800000000000000000000000000000000000000000000000000000000000000000000000000000000, 6551535502830000000000000000000000000000000000000000000000000000000000000000000000000000000, 6550333901550000000000000000000000000000000000000000000000000000000000000000000000000000000, 6549140691860000000000000000000000000000000000000000000000000000000000000000000000000000000, 6547955444200000000000000000000000000000000000000000000000000000000000000000000000000000000, 6546777757950000000000000000000000000000000000000000000000000000000000000000000000000000000, 6545607259030000000000000000000000000000000000000000000000000000000000000000000000000000000, 6544443597670000000000000000000000000000000000000000000000000000000000000000000000000000000, 6543286446440000000000000000000000000000000000000000000000000000000000000000000000000000000, 6542135498410000000000000000000000000000000000000000000000000000000000000000000000000000000, 6540990465470000000000000000000000000000000000000000000000000000000000000000000000000000000, 6539851076830000000000000000000000000000000000000000000000000000000000000000000000000000000, 6538717077680000000000000000000000000000000000000000000000000000000000000000000000000000000, 6537588227890000000000000000000000000000000000000000000000000000000000000000000000000000000]),
  (54804208416800, [6724247977490000000000000000000000000000000000000000000000000000000000000000000000000000000, 6718760809070000000000000000000000000000000000000000000000000000000000000000000000000000000, 6717303475400000000000000000000000000000000000000000000000000000000000000000000000000000000, 6715932084470000000000000000000000000000000000000000000000000000000000000000000000000000000, 6714501189840000000000000000000000000000000000000000000000000000000000000000000000000000000, 6713019649390000000000000000000000000000000000000000000000000000000000000000000000000000000, 6711511538400000000000000000000000000000000000000000000000000000000000000000000000000000000, 6709996419560000000000000000000000000000000000000000000000000000000000000000000000000000000, 6708487242970000000000000000000000000000000000000000000000000000000000000000000000000000000, 6706991774760000000000000000000000000000000000000000000000000000000000000000000000000000000, 6705514274250000000000000000000000000000000000000000000000000000000000000000000000000000000, 6704056773590000000000000000000000000000000000000000000000000000000000000000000000000000000, 6702619943190000000000000000000000000000000000000000000000000000000000000000000000000000000, 6701203647680000000000000000000000000000000000000000000000000000000000000000000000000000000, 6699807293540000000000000000000000000000000000000000000000000000000000000000000000000000000, 6698430043040000000000000000000000000000000000000000000000000000000000000000000000000000000, 6697070944060000000000000000000000000000000000000000000000000000000000000000000000000000000, 6695729007650000000000000000000000000000000000000000000000000000000000000000000000000000000, 6694403253410000000000000000000000000000000000000000000000000000000000000000000000000000000, 6693092735050000000000000000000000000000000000000000000000000000000000000000000000000000000, 6691796553850000000000000000000000000000000000000000000000000000000000000000000000000000000, 6690513864750000000000000000000000000000000000000000000000000000000000000000000000000000000, 6689243878080000000000000000000000000000000000000000000000000000000000000000000000000000000, 6687985858680000000000000000000000000000000000000000000000000000000000000000000000000000000, 6686739123550000000000000000000000000000000000000000000000000000000000000000000000000000000, 6685503038860000000000000000000000000000000000000000000000000000000000000000000000000000000, 6684277016470000000000000000000000000000000000000000000000000000000000000000000000000000000, 6683060510530000000000000000000000000000000000000000000000000000000000000000000000000000000, 6681853014070000000000000000000000000000000000000000000000000000000000000000000000000000000, 6680654055790000000000000000000000000000000000000000000000000000000000000000000000000000000, 6679463197080000000000000000000000000000000000000000000000000000000000000000000000000000000, 6678280029200000000000000000000000000000000000000000000000000000000000000000000000000000000, 6677104170800000000000000000000000000000000000000000000000000000000000000000000000000000000, 6675935265540000000000000000000000000000000000000000000000000000000000000000000000000000000, 6674772980030000000000000000000000000000000000000000000000000000000000000000000000000000000, 6673617001870000000000000000000000000000000000000000000000000000000000000000000000000000000, 6672467037940000000000000000000000000000000000000000000000000000000000000000000000000000000, 6671322812850000000000000000000000000000000000000000000000000000000000000000000000000000000, 6670184067480000000000000000000000000000000000000000000000000000000000000000000000000000000, 6669050557720000000000000000000000000000000000000000000000000000000000000000000000000000000]),
  (56908216432900, [6850948760230000000000000000000000000000000000000000000000000000000000000000000000000000000, 6847884225060000000000000000000000000000000000000000000000000000000000000000000000000000000, 6846466654800000000000000000000000000000000000000000000000000000000000000000000000000000000, 6845084742610000000000000000000000000000000000000000000000000000000000000000000000000000000, 6843640278480000000000000000000000000000000000000000000000000000000000000000000000000000000, 6842143571110000000000000000000000000000000000000000000000000000000000000000000000000000000, 6840619823070000000000000000000000000000000000000000000000000000000000000000000000000000000, 6839089290270000000000000000000000000000000000000000000000000000000000000000000000000000000, 6837565277540000000000000000000000000000000000000000000000000000000000000000000000000000000, 6836055702400000000000000000000000000000000000000000000000000000000000000000000000000000000, 6834564863620000000000000000000000000000000000000000000000000000000000000000000000000000000, 6833094775610000000000000000000000000000000000000000000000000000000000000000000000000000000, 6831646064610000000000000000000000000000000000000000000000000000000000000000000000000000000, 6830218540990000000000000000000000000000000000000000000000000000000000000000000000000000000, 6828811555190000000000000000000000000000000000000000000000000000000000000000000000000000000, 6827424215490000000000000000000000000000000000000000000000000000000000000000000000000000000, 6826055519500000000000000000000000000000000000000000000000000000000000000000000000000000000, 6824704432260000000000000000000000000000000000000000000000000000000000000000000000000000000, 6823369931670000000000000000000000000000000000000000000000000000000000000000000000000000000, 6822051033790000000000000000000000000000000000000000000000000000000000000000000000000000000, 6820746806100000000000000000000000000000000000000000000000000000000000000000000000000000000, 6819456373230000000000000000000000000000000000000000000000000000000000000000000000000000000, 6818178918390000000000000000000000000000000000000000000000000000000000000000000000000000000, 6816913682180000000000000000000000000000000000000000000000000000000000000000000000000000000, 6815659960020000000000000000000000000000000000000000000000000000000000000000000000000000000, 6814417098800000000000000000000000000000000000000000000000000000000000000000000000000000000, 6813184493240000000000000000000000000000000000000000000000000000000000000000000000000000000, 6811961582190000000000000000000000000000000000000000000000000000000000000000000000000000000, 6810747845080000000000000000000000000000000000000000000000000000000000000000000000000000000, 6809542798450000000000000000000000000000000000000000000000000000000000000000000000000000000, 6808345992840000000000000000000000000000000000000000000000000000000000000000000000000000000, 6807157009810000000000000000000000000000000000000000000000000000000000000000000000000000000, 6805975459290000000000000000000000000000000000000000000000000000000000000000000000000000000, 6804800977130000000000000000000000000000000000000000000000000000000000000000000000000000000, 6803633222870000000000000000000000000000000000000000000000000000000000000000000000000000000, 6802471877730000000000000000000000000000000000000000000000000000000000000000000000000000000, 6801316642830000000000000000000000000000000000000000000000000000000000000000000000000000000, 6800167237470000000000000000000000000000000000000000000000000000000000000000000000000000000, 6799023397730000000000000000000000000000000000000000000000000000000000000000000000000000000, 6797884875080000000000000000000000000000000000000000000000000000000000000000000000000000000]),
  (59012224448900, [6976328040170000000000000000000000000000000000000000000000000000000000000000000000000000000, 6974731012630000000000000000000000000000000000000000000000000000000000000000000000000000000, 6973308222100000000000000000000000000000000000000000000000000000000000000000000000000000000, 6971911327720000000000000000000000000000000000000000000000000000000000000000000000000000000, 6970453067240000000000000000000000000000000000000000000000000000000000000000000000000000000, 6968942689700000000000000000000000000000000000000000000000000000000000000000000000000000000, 6967405435030000000000000000000000000000000000000000000000000000000000000000000000000000000, 6965861647720000000000000000000000000000000000000000000000000000000000000000000000000000000, 6964324685610000000000000000000000000000000000000000000000000000000000000000000000000000000, 6962802496620000000000000000000000000000000000000000000000000000000000000000000000000000000, 6961299399260000000000000000000000000000000000000000000000000000000000000000000000000000000, 6959817421880000000000000000000000000000000000000000000000000000000000000000000000000000000, 6958357199980000000000000000000000000000000000000000000000000000000000000000000000000000000, 6956918548300000000000000000000000000000000000000000000000000000000000000000000000000000000, 6955500816650000000000000000000000000000000000000000000000000000000000000000000000000000000, 6954103108000000000000000000000000000000000000000000000000000000000000000000000000000000000, 6952724410470000000000000000000000000000000000000000000000000000000000000000000000000000000, 6951363676350000000000000000000000000000000000000000000000000000000000000000000000000000000, 6950019868290000000000000000000000000000000000000000000000000000000000000000000000000000000, 6948691985550000000000000000000000000000000000000000000000000000000000000000000000000000000, 6947379077860000000000000000000000000000000000000000000000000000000000000000000000000000000, 6946080251790000000000000000000000000000000000000000000000000000000000000000000000000000000, 6944794672640000000000000000000000000000000000000000000000000000000000000000000000000000000, 6943521563550000000000000000000000000000000000000000000000000000000000000000000000000000000, 6942260203220000000000000000000000000000000000000000000000000000000000000000000000000000000, 6941009922640000000000000000000000000000000000000000000000000000000000000000000000000000000, 6939770101600000000000000000000000000000000000000000000000000000000000000000000000000000000, 6938540165000000000000000000000000000000000000000000000000000000000000000000000000000000000, 6937319579290000000000000000000000000000000000000000000000000000000000000000000000000000000, 6936107849010000000000000000000000000000000000000000000000000000000000000000000000000000000, 6934904513610000000000000000000000000000000000000000000000000000000000000000000000000000000, 6933709144450000000000000000000000000000000000000000000000000000000000000000000000000000000, 6932521342070000000000000000000000000000000000000000000000000000000000000000000000000000000, 6931340733660000000000000000000000000000000000000000000000000000000000000000000000000000000, 6930166970830000000000000000000000000000000000000000000000000000000000000000000000000000000, 6928999727510000000000000000000000000000000000000000000000000000000000000000000000000000000, 6927838698070000000000000000000000000000000000000000000000000000000000000000000000000000000, 6926683595650000000000000000000000000000000000000000000000000000000000000000000000000000000, 6925534150620000000000000000000000000000000000000000000000000000000000000000000000000000000, 6924390109200000000000000000000000000000000000000000000000000000000000000000000000000000000]),
  (61116232464900, [7100382367580000000000000000000000000000000000000000000000000000000000000000000000000000000, 7099533414390000000000000000000000000000000000000000000000000000000000000000000000000000000, 7098098299670000000000000000000000000000000000000000000000000000000000000000000000000000000, 7096694366360000000000000000000000000000000000000000000000000000000000000000000000000000000, 7095227983160000000000000000000000000000000000000000000000000000000000000000000000000000000, 7093707455780000000000000000000000000000000000000000000000000000000000000000000000000000000, 7092158526110000000000000000000000000000000000000000000000000000000000000000000000000000000, 7090602128690000000000000000000000000000000000000000000000000000000000000000000000000000000, 7089052090930000000000000000000000000000000000000000000000000000000000000000000000000000000, 7087516691110000000000000000000000000000000000000000000000000000000000000000000000000000000, 7086000465640000000000000000000000000000000000000000000000000000000000000000000000000000000, 7084505580120000000000000000000000000000000000000000000000000000000000000000000000000000000, 7083032752470000000000000000000000000000000000000000000000000000000000000000000000000000000, 7081581843590000000000000000000000000000000000000000000000000000000000000000000000000000000, 7080152225880000000000000000000000000000000000000000000000000000000000000000000000000000000, 7078743009570000000000000000000000000000000000000000000000000000000000000000000000000000000, 7077353180310000000000000000000000000000000000000000000000000000000000000000000000000000000, 7075981681730000000000000000000000000000000000000000000000000000000000000000000000000000000, 7074627463990000000000000000000000000000000000000000000000000000000000000000000000000000000, 7073289511600000000000000000000000000000000000000000000000000000000000000000000000000000000, 7071966858280000000000000000000000000000000000000000000000000000000000000000000000000000000, 7070658594070000000000000000000000000000000000000000000000000000000000000000000000000000000, 7069363867630000000000000000000000000000000000000000000000000000000000000000000000000000000, 7068081885760000000000000000000000000000000000000000000000000000000000000000000000000000000, 7066811911190000000000000000000000000000000000000000000000000000000000000000000000000000000, 7065553259560000000000000000000000000000000000000000000000000000000000000000000000000000000, 7064305295980000000000000000000000000000000000000000000000000000000000000000000000000000000, 7063067431370000000000000000000000000000000000000000000000000000000000000000000000000000000, 7061839118940000000000000000000000000000000000000000000000000000000000000000000000000000000, 7060619850730000000000000000000000000000000000000000000000000000000000000000000000000000000, 7059409154430000000000000000000000000000000000000000000000000000000000000000000000000000000, 7058206590360000000000000000000000000000000000000000000000000000000000000000000000000000000, 7057011748700000000000000000000000000000000000000000000000000000000000000000000000000000000, 7055824246960000000000000000000000000000000000000000000000000000000000000000000000000000000, 7054643727690000000000000000000000000000000000000000000000000000000000000000000000000000000, 7053469856360000000000000000000000000000000000000000000000000000000000000000000000000000000, 7052302319470000000000000000000000000000000000000000000000000000000000000000000000000000000, 7051140822810000000000000000000000000000000000000000000000000000000000000000000000000000000, 7049985089900000000000000000000000000000000000000000000000000000000000000000000000000000000, 7048834860570000000000000000000000000000000000000000000000000000000000000000000000000000000]),
  (63220240481000, [7223199397150000000000000000000000000000000000000000000000000000000000000000000000000000000, 7222584607800000000000000000000000000000000000000000000000000000000000000000000000000000000, 7221134665340000000000000000000000000000000000000000000000000000000000000000000000000000000, 7219721494360000000000000000000000000000000000000000000000000000000000000000000000000000000, 7218241829310000000000000000000000000000000000000000000000000000000000000000000000000000000, 7216705423210000000000000000000000000000000000000000000000000000000000000000000000000000000, 7215139500810000000000000000000000000000000000000000000000000000000000000000000000000000000, 7213565899840000000000000000000000000000000000000000000000000000000000000000000000000000000, 7211998936070000000000000000000000000000000000000000000000000000000000000000000000000000000, 7210447124320000000000000000000000000000000000000000000000000000000000000000000000000000000, 7208915095440000000000000000000000000000000000000000000000000000000000000000000000000000000, 7207405034210000000000000000000000000000000000000000000000000000000000000000000000000000000, 7205917640910000000000000000000000000000000000000000000000000000000000000000000000000000000, 7204452743020000000000000000000000000000000000000000000000000000000000000000000000000000000, 7203009674750000000000000000000000000000000000000000000000000000000000000000000000000000000, 7201587508660000000000000000000000000000000000000000000000000000000000000000000000000000000, 7200185195440000000000000000000000000000000000000000000000000000000000000000000000000000000, 7198801647080000000000000000000000000000000000000000000000000000000000000000000000000000000, 7197435785420000000000000000000000000000000000000000000000000000000000000000000000000000000, 7196086569480000000000000000000000000000000000000000000000000000000000000000000000000000000, 7194753009920000000000000000000000000000000000000000000000000000000000000000000000000000000, 7193434175720000000000000000000000000000000000000000000000000000000000000000000000000000000, 7192129196120000000000000000000000000000000000000000000000000000000000000000000000000000000, 7190837259820000000000000000000000000000000000000000000000000000000000000000000000000000000, 7189557612650000000000000000000000000000000000000000000000000000000000000000000000000000000, 7188289554320000000000000000000000000000000000000000000000000000000000000000000000000000000, 7187032434870000000000000000000000000000000000000000000000000000000000000000000000000000000, 7185785650980000000000000000000000000000000000000000000000000000000000000000000000000000000, 7184548642330000000000000000000000000000000000000000000000000000000000000000000000000000000, 7183320888180000000000000000000000000000000000000000000000000000000000000000000000000000000, 7182101904040000000000000000000000000000000000000000000000000000000000000000000000000000000, 7180891238700000000000000000000000000000000000000000000000000000000000000000000000000000000, 7179688471460000000000000000000000000000000000000000000000000000000000000000000000000000000, 7178493209490000000000000000000000000000000000000000000000000000000000000000000000000000000, 7177305085620000000000000000000000000000000000000000000000000000000000000000000000000000000, 7176123756110000000000000000000000000000000000000000000000000000000000000000000000000000000, 7174948898790000000000000000000000000000000000000000000000000000000000000000000000000000000, 7173780211310000000000000000000000000000000000000000000000000000000000000000000000000000000, 7172617409500000000000000000000000000000000000000000000000000000000000000000000000000000000, 7171460226000000000000000000000000000000000000000000000000000000000000000000000000000000000]),
  (65324248497000, [7344924166870000000000000000000000000000000000000000000000000000000000000000000000000000000, 7344144065600000000000000000000000000000000000000000000000000000000000000000000000000000000, 7342641483740000000000000000000000000000000000000000000000000000000000000000000000000000000, 7341196934740000000000000000000000000000000000000000000000000000000000000000000000000000000, 7339690839130000000000000000000000000000000000000000000000000000000000000000000000000000000, 7338130975180000000000000000000000000000000000000000000000000000000000000000000000000000000, 7336543751260000000000000000000000000000000000000000000000000000000000000000000000000000000, 7334950502190000000000000000000000000000000000000000000000000000000000000000000000000000000, 7333365197610000000000000000000000000000000000000000000000000000000000000000000000000000000, 7331796102730000000000000000000000000000000000000000000000000000000000000000000000000000000, 7330247664890000000000000000000000000000000000000000000000000000000000000000000000000000000, 7328721932840000000000000000000000000000000000000000000000000000000000000000000000000000000, 7327219505420000000000000000000000000000000000000000000000000000000000000000000000000000000, 7325740133930000000000000000000000000000000000000000000000000000000000000000000000000000000, 7324283094640000000000000000000000000000000000000000000000000000000000000000000000000000000, 7322847415330000000000000000000000000000000000000000000000000000000000000000000000000000000, 7321432011310000000000000000000000000000000000000000000000000000000000000000000000000000000, 7320035765880000000000000000000000000000000000000000000000000000000000000000000000000000000, 7318657576880000000000000000000000000000000000000000000000000000000000000000000000000000000, 7317296382740000000000000000000000000000000000000000000000000000000000000000000000000000000, 7315951175880000000000000000000000000000000000000000000000000000000000000000000000000000000, 7314621008770000000000000000000000000000000000000000000000000000000000000000000000000000000, 7313304995390000000000000000000000000000000000000000000000000000000000000000000000000000000, 7312002310120000000000000000000000000000000000000000000000000000000000000000000000000000000, 7310712185220000000000000000000000000000000000000000000000000000000000000000000000000000000, 7309433907400000000000000000000000000000000000000000000000000000000000000000000000000000000, 7308166814250000000000000000000000000000000000000000000000000000000000000000000000000000000, 7306910290430000000000000000000000000000000000000000000000000000000000000000000000000000000, 7305663764080000000000000000000000000000000000000000000000000000000000000000000000000000000, 7304426703270000000000000000000000000000000000000000000000000000000000000000000000000000000, 7303198612830000000000000000000000000000000000000000000000000000000000000000000000000000000, 7301979031210000000000000000000000000000000000000000000000000000000000000000000000000000000, 7300767527800000000000000000000000000000000000000000000000000000000000000000000000000000000, 7299563700310000000000000000000000000000000000000000000000000000000000000000000000000000000, 7298367172470000000000000000000000000000000000000000000000000000000000000000000000000000000, 7297177591880000000000000000000000000000000000000000000000000000000000000000000000000000000, 7295994628120000000000000000000000000000000000000000000000000000000000000000000000000000000, 7294817970960000000000000000000000000000000000000000000000000000000000000000000000000000000, 7293647328770000000000000000000000000000000000000000000000000000000000000000000000000000000, 7292482427090000000000000000000000000000000000000000000000000000000000000000000000000000000]),
  (67428256513000, [7465268062930000000000000000000000000000000000000000000000000000000000000000000000000000000, 7464189854720000000000000000000000000000000000000000000000000000000000000000000000000000000, 7462672972250000000000000000000000000000000000000000000000000000000000000000000000000000000, 7461221489550000000000000000000000000000000000000000000000000000000000000000000000000000000, 7459705286450000000000000000000000000000000000000000000000000000000000000000000000000000000, 7458133120450000000000000000000000000000000000000000000000000000000000000000000000000000000, 7456532349320000000000000000000000000000000000000000000000000000000000000000000000000000000, 7454924907550000000000000000000000000000000000000000000000000000000000000000000000000000000, 7453325125990000000000000000000000000000000000000000000000000000000000000000000000000000000, 7451741490300000000000000000000000000000000000000000000000000000000000000000000000000000000, 7450178586060000000000000000000000000000000000000000000000000000000000000000000000000000000, 7448638550240000000000000000000000000000000000000000000000000000000000000000000000000000000, 7447122037750000000000000000000000000000000000000000000000000000000000000000000000000000000, 7445628834520000000000000000000000000000000000000000000000000000000000000000000000000000000, 7444158236780000000000000000000000000000000000000000000000000000000000000000000000000000000, 7442709282190000000000000000000000000000000000000000000000000000000000000000000000000000000, 7441280889090000000000000000000000000000000000000000000000000000000000000000000000000000000, 7439871939220000000000000000000000000000000000000000000000000000000000000000000000000000000, 7438481325890000000000000000000000000000000000000000000000000000000000000000000000000000000, 7437107981000000000000000000000000000000000000000000000000000000000000000000000000000000000, 7435750889320000000000000000000000000000000000000000000000000000000000000000000000000000000, 7434409094930000000000000000000000000000000000000000000000000000000000000000000000000000000, 7433081703080000000000000000000000000000000000000000000000000000000000000000000000000000000, 7431767879250000000000000000000000000000000000000000000000000000000000000000000000000000000, 7430466846740000000000000000000000000000000000000000000000000000000000000000000000000000000, 7429177883410000000000000000000000000000000000000000000000000000000000000000000000000000000, 7427900318080000000000000000000000000000000000000000000000000000000000000000000000000000000, 7426633526800000000000000000000000000000000000000000000000000000000000000000000000000000000, 7425376929280000000000000000000000000000000000000000000000000000000000000000000000000000000, 7424129985360000000000000000000000000000000000000000000000000000000000000000000000000000000, 7422892191820000000000000000000000000000000000000000000000000000000000000000000000000000000, 7421663079340000000000000000000000000000000000000000000000000000000000000000000000000000000, 7420442209700000000000000000000000000000000000000000000000000000000000000000000000000000000, 7419229173260000000000000000000000000000000000000000000000000000000000000000000000000000000, 7418023586620000000000000000000000000000000000000000000000000000000000000000000000000000000, 7416825090530000000000000000000000000000000000000000000000000000000000000000000000000000000, 7415633347920000000000000000000000000000000000000000000000000000000000000000000000000000000, 7414448042160000000000000000000000000000000000000000000000000000000000000000000000000000000, 7413268875480000000000000000000000000000000000000000000000000000000000000000000000000000000, 7412095567500000000000000000000000000000000000000000000000000000000000000000000000000000000]),
  (69532264529100, [7584467906410000000000000000000000000000000000000000000000000000000000000000000000000000000, 7582999791970000000000000000000000000000000000000000000000000000000000000000000000000000000, 7581466375510000000000000000000000000000000000000000000000000000000000000000000000000000000, 7580008209880000000000000000000000000000000000000000000000000000000000000000000000000000000, 7578483872670000000000000000000000000000000000000000000000000000000000000000000000000000000, 7576901631960000000000000000000000000000000000000000000000000000000000000000000000000000000, 7575289189080000000000000000000000000000000000000000000000000000000000000000000000000000000, 7573668948510000000000000000000000000000000000000000000000000000000000000000000000000000000, 7572055663870000000000000000000000000000000000000000000000000000000000000000000000000000000, 7570458152340000000000000000000000000000000000000000000000000000000000000000000000000000000, 7568881240050000000000000000000000000000000000000000000000000000000000000000000000000000000, 7567327228430000000000000000000000000000000000000000000000000000000000000000000000000000000, 7565796878770000000000000000000000000000000000000000000000000000000000000000000000000000000, 7564290041430000000000000000000000000000000000000000000000000000000000000000000000000000000, 7562806048120000000000000000000000000000000000000000000000000000000000000000000000000000000, 7561343952810000000000000000000000000000000000000000000000000000000000000000000000000000000, 7559902677910000000000000000000000000000000000000000000000000000000000000000000000000000000, 7558481101800000000000000000000000000000000000000000000000000000000000000000000000000000000, 7557078110270000000000000000000000000000000000000000000000000000000000000000000000000000000, 7555692625580000000000000000000000000000000000000000000000000000000000000000000000000000000, 7554323622040000000000000000000000000000000000000000000000000000000000000000000000000000000, 7552970133260000000000000000000000000000000000000000000000000000000000000000000000000000000, 7551631254400000000000000000000000000000000000000000000000000000000000000000000000000000000, 7550306141470000000000000000000000000000000000000000000000000000000000000000000000000000000, 7548994008960000000000000000000000000000000000000000000000000000000000000000000000000000000, 7547694126590000000000000000000000000000000000000000000000000000000000000000000000000000000, 7546405815660000000000000000000000000000000000000000000000000000000000000000000000000000000, 7545128445270000000000000000000000000000000000000000000000000000000000000000000000000000000, 7543861428610000000000000000000000000000000000000000000000000000000000000000000000000000000, 7542604219450000000000000000000000000000000000000000000000000000000000000000000000000000000, 7541356308810000000000000000000000000000000000000000000000000000000000000000000000000000000, 7540117221880000000000000000000000000000000000000000000000000000000000000000000000000000000, 7538886515230000000000000000000000000000000000000000000000000000000000000000000000000000000, 7537663774190000000000000000000000000000000000000000000000000000000000000000000000000000000, 7536448610510000000000000000000000000000000000000000000000000000000000000000000000000000000, 7535240660230000000000000000000000000000000000000000000000000000000000000000000000000000000, 7534039581710000000000000000000000000000000000000000000000000000000000000000000000000000000, 7532845053890000000000000000000000000000000000000000000000000000000000000000000000000000000, 7531656774680000000000000000000000000000000000000000000000000000000000000000000000000000000, 7530474459500000000000000000000000000000000000000000000000000000000000000000000000000000000]),
  (71636272545100, [7702696468900000000000000000000000000000000000000000000000000000000000000000000000000000000, 7700811413490000000000000000000000000000000000000000000000000000000000000000000000000000000, 7699242499020000000000000000000000000000000000000000000000000000000000000000000000000000000, 7697762629750000000000000000000000000000000000000000000000000000000000000000000000000000000, 7696219678400000000000000000000000000000000000000000000000000000000000000000000000000000000, 7694619973180000000000000000000000000000000000000000000000000000000000000000000000000000000, 7692990568480000000000000000000000000000000000000000000000000000000000000000000000000000000, 7691353707400000000000000000000000000000000000000000000000000000000000000000000000000000000, 7689724150380000000000000000000000000000000000000000000000000000000000000000000000000000000, 7688110758630000000000000000000000000000000000000000000000000000000000000000000000000000000, 7686518392610000000000000000000000000000000000000000000000000000000000000000000000000000000, 7684949367390000000000000000000000000000000000000000000000000000000000000000000000000000000, 7683404439100000000000000000000000000000000000000000000000000000000000000000000000000000000, 7681883439680000000000000000000000000000000000000000000000000000000000000000000000000000000, 7680385674450000000000000000000000000000000000000000000000000000000000000000000000000000000, 7678910167280000000000000000000000000000000000000000000000000000000000000000000000000000000, 7677455809640000000000000000000000000000000000000000000000000000000000000000000000000000000, 7676021450060000000000000000000000000000000000000000000000000000000000000000000000000000000, 7674605946610000000000000000000000000000000000000000000000000000000000000000000000000000000, 7673208196610000000000000000000000000000000000000000000000000000000000000000000000000000000, 7671827152390000000000000000000000000000000000000000000000000000000000000000000000000000000, 7670461828430000000000000000000000000000000000000000000000000000000000000000000000000000000, 7669111303470000000000000000000000000000000000000000000000000000000000000000000000000000000, 7667774719510000000000000000000000000000000000000000000000000000000000000000000000000000000, 7666451279170000000000000000000000000000000000000000000000000000000000000000000000000000000, 7665140242120000000000000000000000000000000000000000000000000000000000000000000000000000000, 7663840921130000000000000000000000000000000000000000000000000000000000000000000000000000000, 7662552678020000000000000000000000000000000000000000000000000000000000000000000000000000000, 7661274919740000000000000000000000000000000000000000000000000000000000000000000000000000000, 7660007094630000000000000000000000000000000000000000000000000000000000000000000000000000000, 7658748688940000000000000000000000000000000000000000000000000000000000000000000000000000000, 7657499223600000000000000000000000000000000000000000000000000000000000000000000000000000000, 7656258251300000000000000000000000000000000000000000000000000000000000000000000000000000000, 7655025353820000000000000000000000000000000000000000000000000000000000000000000000000000000, 7653800139570000000000000000000000000000000000000000000000000000000000000000000000000000000, 7652582241420000000000000000000000000000000000000000000000000000000000000000000000000000000, 7651371314690000000000000000000000000000000000000000000000000000000000000000000000000000000, 7650167035380000000000000000000000000000000000000000000000000000000000000000000000000000000, 7648969098520000000000000000000000000000000000000000000000000000000000000000000000000000000, 7647777216700000000000000000000000000000000000000000000000000000000000000000000000000000000]),
  (73740280561100, [7819897814020000000000000000000000000000000000000000000000000000000000000000000000000000000, 7817679094460000000000000000000000000000000000000000000000000000000000000000000000000000000, 7816096726840000000000000000000000000000000000000000000000000000000000000000000000000000000, 7814603419100000000000000000000000000000000000000000000000000000000000000000000000000000000, 7813044182210000000000000000000000000000000000000000000000000000000000000000000000000000000, 7811426772050000000000000000000000000000000000000000000000000000000000000000000000000000000, 7809779232480000000000000000000000000000000000000000000000000000000000000000000000000000000, 7808124368820000000000000000000000000000000000000000000000000000000000000000000000000000000, 7806477231680000000000000000000000000000000000000000000000000000000000000000000000000000000, 7804846812370000000000000000000000000000000000000000000000000000000000000000000000000000000, 7803238011010000000000000000000000000000000000000000000000000000000000000000000000000000000, 7801653133250000000000000000000000000000000000000000000000000000000000000000000000000000000, 7800092901000000000000000000000000000000000000000000000000000000000000000000000000000000000, 7798557100920000000000000000000000000000000000000000000000000000000000000000000000000000000, 7797044989850000000000000000000000000000000000000000000000000000000000000000000000000000000, 7795555544140000000000000000000000000000000000000000000000000000000000000000000000000000000, 7794087610980000000000000000000000000000000000000000000000000000000000000000000000000000000, 7792639998900000000000000000000000000000000000000000000000000000000000000000000000000000000, 7791211530520000000000000000000000000000000000000000000000000000000000000000000000000000000, 7789801072290000000000000000000000000000000000000000000000000000000000000000000000000000000, 7788407549920000000000000000000000000000000000000000000000000000000000000000000000000000000, 7787029955150000000000000000000000000000000000000000000000000000000000000000000000000000000, 7785667347450000000000000000000000000000000000000000000000000000000000000000000000000000000, 7784318852540000000000000000000000000000000000000000000000000000000000000000000000000000000, 7782983659340000000000000000000000000000000000000000000000000000000000000000000000000000000, 7781661016010000000000000000000000000000000000000000000000000000000000000000000000000000000, 7780350225610000000000000000000000000000000000000000000000000000000000000000000000000000000, 7779050641820000000000000000000000000000000000000000000000000000000000000000000000000000000, 7777761664660000000000000000000000000000000000000000000000000000000000000000000000000000000, 7776482736570000000000000000000000000000000000000000000000000000000000000000000000000000000, 7775213338710000000000000000000000000000000000000000000000000000000000000000000000000000000, 7773952987600000000000000000000000000000000000000000000000000000000000000000000000000000000, 7772701232040000000000000000000000000000000000000000000000000000000000000000000000000000000, 7771457650280000000000000000000000000000000000000000000000000000000000000000000000000000000, 7770221847580000000000000000000000000000000000000000000000000000000000000000000000000000000, 7768993453890000000000000000000000000000000000000000000000000000000000000000000000000000000, 7767772121790000000000000000000000000000000000000000000000000000000000000000000000000000000, 7766557524710000000000000000000000000000000000000000000000000000000000000000000000000000000, 7765349355190000000000000000000000000000000000000000000000000000000000000000000000000000000, 7764147323460000000000000000000000000000000000000000000000000000000000000000000000000000000]),
  (75844288577200, [7936296344480000000000000000000000000000000000000000000000000000000000000000000000000000000, 7933787828700000000000000000000000000000000000000000000000000000000000000000000000000000000, 7932181873230000000000000000000000000000000000000000000000000000000000000000000000000000000, 7930669977610000000000000000000000000000000000000000000000000000000000000000000000000000000, 7929092313070000000000000000000000000000000000000000000000000000000000000000000000000000000, 7927456222100000000000000000000000000000000000000000000000000000000000000000000000000000000, 7925789929910000000000000000000000000000000000000000000000000000000000000000000000000000000, 7924116497870000000000000000000000000000000000000000000000000000000000000000000000000000000, 7922451170130000000000000000000000000000000000000000000000000000000000000000000000000000000, 7920803049870000000000000000000000000000000000000000000000000000000000000000000000000000000, 7919177083430000000000000000000000000000000000000000000000000000000000000000000000000000000, 7917575578950000000000000000000000000000000000000000000000000000000000000000000000000000000, 7915999235230000000000000000000000000000000000000000000000000000000000000000000000000000000, 7914447803020000000000000000000000000000000000000000000000000000000000000000000000000000000, 7912920498460000000000000000000000000000000000000000000000000000000000000000000000000000000, 7911416257170000000000000000000000000000000000000000000000000000000000000000000000000000000, 7909933888010000000000000000000000000000000000000000000000000000000000000000000000000000000, 7908472164640000000000000000000000000000000000000000000000000000000000000000000000000000000, 7907029878720000000000000000000000000000000000000000000000000000000000000000000000000000000, 7905605869430000000000000000000000000000000000000000000000000000000000000000000000000000000, 7904199038630000000000000000000000000000000000000000000000000000000000000000000000000000000, 7902808357340000000000000000000000000000000000000000000000000000000000000000000000000000000, 7901432866950000000000000000000000000000000000000000000000000000000000000000000000000000000, 7900071677470000000000000000000000000000000000000000000000000000000000000000000000000000000, 7898723964110000000000000000000000000000000000000000000000000000000000000000000000000000000, 7897388963040000000000000000000000000000000000000000000000000000000000000000000000000000000, 7896065966810000000000000000000000000000000000000000000000000000000000000000000000000000000, 7894754319850000000000000000000000000000000000000000000000000000000000000000000000000000000, 7893453414020000000000000000000000000000000000000000000000000000000000000000000000000000000, 7892162684520000000000000000000000000000000000000000000000000000000000000000000000000000000, 7890881606060000000000000000000000000000000000000000000000000000000000000000000000000000000, 7889609689360000000000000000000000000000000000000000000000000000000000000000000000000000000, 7888346478010000000000000000000000000000000000000000000000000000000000000000000000000000000, 7887091545550000000000000000000000000000000000000000000000000000000000000000000000000000000, 7885844492900000000000000000000000000000000000000000000000000000000000000000000000000000000, 7884604946060000000000000000000000000000000000000000000000000000000000000000000000000000000, 7883372553960000000000000000000000000000000000000000000000000000000000000000000000000000000, 7882146986590000000000000000000000000000000000000000000000000000000000000000000000000000000, 7880927933330000000000000000000000000000000000000000000000000000000000000000000000000000000, 7879715101380000000000000000000000000000000000000000000000000000000000000000000000000000000]),
  (77948296593200, [8052015594110000000000000000000000000000000000000000000000000000000000000000000000000000000, 8049270772080000000000000000000000000000000000000000000000000000000000000000000000000000000, 8047633368030000000000000000000000000000000000000000000000000000000000000000000000000000000, 8046096809040000000000000000000000000000000000000000000000000000000000000000000000000000000, 8044496217750000000000000000000000000000000000000000000000000000000000000000000000000000000, 8042838082700000000000000000000000000000000000000000000000000000000000000000000000000000000, 8041150500640000000000000000000000000000000000000000000000000000000000000000000000000000000, 8039456531920000000000000000000000000000000000000000000000000000000000000000000000000000000, 8037771413550000000000000000000000000000000000000000000000000000000000000000000000000000000, 8036104215560000000000000000000000000000000000000000000000000000000000000000000000000000000, 8034459832400000000000000000000000000000000000000000000000000000000000000000000000000000000, 8032840512310000000000000000000000000000000000000000000000000000000000000000000000000000000, 8031246894320000000000000000000000000000000000000000000000000000000000000000000000000000000, 8029678674170000000000000000000000000000000000000000000000000000000000000000000000000000000, 8028135019720000000000000000000000000000000000000000000000000000000000000000000000000000000, 8026614825180000000000000000000000000000000000000000000000000000000000000000000000000000000, 8025116864290000000000000000000000000000000000000000000000000000000000000000000000000000000, 8023639880850000000000000000000000000000000000000000000000000000000000000000000000000000000, 8022182640920000000000000000000000000000000000000000000000000000000000000000000000000000000, 8020743961400000000000000000000000000000000000000000000000000000000000000000000000000000000, 8019322724560000000000000000000000000000000000000000000000000000000000000000000000000000000, 8017917883870000000000000000000000000000000000000000000000000000000000000000000000000000000, 8016528464890000000000000000000000000000000000000000000000000000000000000000000000000000000, 8015153563170000000000000000000000000000000000000000000000000000000000000000000000000000000, 8013792340670000000000000000000000000000000000000000000000000000000000000000000000000000000, 8012444021320000000000000000000000000000000000000000000000000000000000000000000000000000000, 8011107886430000000000000000000000000000000000000000000000000000000000000000000000000000000, 8009783269960000000000000000000000000000000000000000000000000000000000000000000000000000000, 8008469554150000000000000000000000000000000000000000000000000000000000000000000000000000000, 8007166165260000000000000000000000000000000000000000000000000000000000000000000000000000000, 8005872569760000000000000000000000000000000000000000000000000000000000000000000000000000000, 8004588270750000000000000000000000000000000000000000000000000000000000000000000000000000000, 8003312804750000000000000000000000000000000000000000000000000000000000000000000000000000000, 8002045738790000000000000000000000000000000000000000000000000000000000000000000000000000000, 8000786667760000000000000000000000000000000000000000000000000000000000000000000000000000000, 7999535212060000000000000000000000000000000000000000000000000000000000000000000000000000000, 7998291015440000000000000000000000000000000000000000000000000000000000000000000000000000000, 7997053743080000000000000000000000000000000000000000000000000000000000000000000000000000000, 7995823079880000000000000000000000000000000000000000000000000000000000000000000000000000000, 7994598728860000000000000000000000000000000000000000000000000000000000000000000000000000000]),
  (80052304609200, [8167113221310000000000000000000000000000000000000000000000000000000000000000000000000000000, 8164203292010000000000000000000000000000000000000000000000000000000000000000000000000000000, 8162537122710000000000000000000000000000000000000000000000000000000000000000000000000000000, 8160976268020000000000000000000000000000000000000000000000000000000000000000000000000000000, 8159352625180000000000000000000000000000000000000000000000000000000000000000000000000000000, 8157672173250000000000000000000000000000000000000000000000000000000000000000000000000000000, 8155962964980000000000000000000000000000000000000000000000000000000000000000000000000000000, 8154248061000000000000000000000000000000000000000000000000000000000000000000000000000000000, 8152542670010000000000000000000000000000000000000000000000000000000000000000000000000000000, 8150855810640000000000000000000000000000000000000000000000000000000000000000000000000000000, 8149192318570000000000000000000000000000000000000000000000000000000000000000000000000000000, 8147554386760000000000000000000000000000000000000000000000000000000000000000000000000000000, 8145942607190000000000000000000000000000000000000000000000000000000000000000000000000000000, 8144356637510000000000000000000000000000000000000000000000000000000000000000000000000000000, 8142795615310000000000000000000000000000000000000000000000000000000000000000000000000000000, 8141258410470000000000000000000000000000000000000000000000000000000000000000000000000000000, 8139743776640000000000000000000000000000000000000000000000000000000000000000000000000000000, 8138250440320000000000000000000000000000000000000000000000000000000000000000000000000000000, 8136777152000000000000000000000000000000000000000000000000000000000000000000000000000000000, 8135322714160000000000000000000000000000000000000000000000000000000000000000000000000000000, 8133885995280000000000000000000000000000000000000000000000000000000000000000000000000000000, 8132465935510000000000000000000000000000000000000000000000000000000000000000000000000000000, 8131061547400000000000000000000000000000000000000000000000000000000000000000000000000000000, 8129671913880000000000000000000000000000000000000000000000000000000000000000000000000000000, 8128296184620000000000000000000000000000000000000000000000000000000000000000000000000000000, 8126933571660000000000000000000000000000000000000000000000000000000000000000000000000000000, 8125583344840000000000000000000000000000000000000000000000000000000000000000000000000000000, 8124244827180000000000000000000000000000000000000000000000000000000000000000000000000000000, 8122917390450000000000000000000000000000000000000000000000000000000000000000000000000000000, 8121600451000000000000000000000000000000000000000000000000000000000000000000000000000000000, 8120293465910000000000000000000000000000000000000000000000000000000000000000000000000000000, 8118995929450000000000000000000000000000000000000000000000000000000000000000000000000000000, 8117707369840000000000000000000000000000000000000000000000000000000000000000000000000000000, 8116427346340000000000000000000000000000000000000000000000000000000000000000000000000000000, 8115155446560000000000000000000000000000000000000000000000000000000000000000000000000000000, 8113891284120000000000000000000000000000000000000000000000000000000000000000000000000000000, 8112634496410000000000000000000000000000000000000000000000000000000000000000000000000000000, 8111384742710000000000000000000000000000000000000000000000000000000000000000000000000000000, 8110141702390000000000000000000000000000000000000000000000000000000000000000000000000000000, 8108905073320000000000000000000000000000000000000000000000000000000000000000000000000000000]),
  (82156312625300, [8281614553460000000000000000000000000000000000000000000000000000000000000000000000000000000, 8278619969930000000000000000000000000000000000000000000000000000000000000000000000000000000, 8276946058370000000000000000000000000000000000000000000000000000000000000000000000000000000, 8275374416250000000000000000000000000000000000000000000000000000000000000000000000000000000, 8273736503750000000000000000000000000000000000000000000000000000000000000000000000000000000, 8272039469260000000000000000000000000000000000000000000000000000000000000000000000000000000, 8270312342190000000000000000000000000000000000000000000000000000000000000000000000000000000, 8268578818320000000000000000000000000000000000000000000000000000000000000000000000000000000, 8266854493850000000000000000000000000000000000000000000000000000000000000000000000000000000, 8265148622060000000000000000000000000000000000000000000000000000000000000000000000000000000, 8263466183340000000000000000000000000000000000000000000000000000000000000000000000000000000, 8261809462000000000000000000000000000000000000000000000000000000000000000000000000000000000, 8260179108510000000000000000000000000000000000000000000000000000000000000000000000000000000, 8258574817620000000000000000000000000000000000000000000000000000000000000000000000000000000, 8256995749380000000000000000000000000000000000000000000000000000000000000000000000000000000, 8255440785880000000000000000000000000000000000000000000000000000000000000000000000000000000, 8253908685480000000000000000000000000000000000000000000000000000000000000000000000000000000, 8252398174110000000000000000000000000000000000000000000000000000000000000000000000000000000, 8250907997890000000000000000000000000000000000000000000000000000000000000000000000000000000, 8249436952250000000000000000000000000000000000000000000000000000000000000000000000000000000, 8247983896810000000000000000000000000000000000000000000000000000000000000000000000000000000, 8246547761710000000000000000000000000000000000000000000000000000000000000000000000000000000, 8245127548820000000000000000000000000000000000000000000000000000000000000000000000000000000, 8243722330010000000000000000000000000000000000000000000000000000000000000000000000000000000, 8242331243780000000000000000000000000000000000000000000000000000000000000000000000000000000, 8240953491160000000000000000000000000000000000000000000000000000000000000000000000000000000, 8239588331160000000000000000000000000000000000000000000000000000000000000000000000000000000, 8238235076300000000000000000000000000000000000000000000000000000000000000000000000000000000, 8236893088220000000000000000000000000000000000000000000000000000000000000000000000000000000, 8235561773590000000000000000000000000000000000000000000000000000000000000000000000000000000, 8234240580240000000000000000000000000000000000000000000000000000000000000000000000000000000, 8232928993670000000000000000000000000000000000000000000000000000000000000000000000000000000, 8231626533770000000000000000000000000000000000000000000000000000000000000000000000000000000, 8230332751930000000000000000000000000000000000000000000000000000000000000000000000000000000, 8229047228350000000000000000000000000000000000000000000000000000000000000000000000000000000, 8227769569660000000000000000000000000000000000000000000000000000000000000000000000000000000, 8226499406680000000000000000000000000000000000000000000000000000000000000000000000000000000, 8225236392500000000000000000000000000000000000000000000000000000000000000000000000000000000, 8223980200700000000000000000000000000000000000000000000000000000000000000000000000000000000, 8222730523680000000000000000000000000000000000000000000000000000000000000000000000000000000]),
  (84260320641300, [8395701407350000000000000000000000000000000000000000000000000000000000000000000000000000000, 8392662852330000000000000000000000000000000000000000000000000000000000000000000000000000000, 8390982183710000000000000000000000000000000000000000000000000000000000000000000000000000000, 8389400805100000000000000000000000000000000000000000000000000000000000000000000000000000000, 8387749503150000000000000000000000000000000000000000000000000000000000000000000000000000000, 8386036374550000000000000000000000000000000000000000000000000000000000000000000000000000000, 8384291400720000000000000000000000000000000000000000000000000000000000000000000000000000000, 8382538981670000000000000000000000000000000000000000000000000000000000000000000000000000000, 8380795199400000000000000000000000000000000000000000000000000000000000000000000000000000000, 8379069635350000000000000000000000000000000000000000000000000000000000000000000000000000000, 8377367488470000000000000000000000000000000000000000000000000000000000000000000000000000000, 8375691185560000000000000000000000000000000000000000000000000000000000000000000000000000000, 8374041466630000000000000000000000000000000000000000000000000000000000000000000000000000000, 8372418079430000000000000000000000000000000000000000000000000000000000000000000000000000000, 8370820212150000000000000000000000000000000000000000000000000000000000000000000000000000000, 8369246758430000000000000000000000000000000000000000000000000000000000000000000000000000000, 8367696477550000000000000000000000000000000000000000000000000000000000000000000000000000000, 8366168089690000000000000000000000000000000000000000000000000000000000000000000000000000000, 8364660331320000000000000000000000000000000000000000000000000000000000000000000000000000000, 8363171986160000000000000000000000000000000000000000000000000000000000000000000000000000000, 8361701901160000000000000000000000000000000000000000000000000000000000000000000000000000000, 8360248993590000000000000000000000000000000000000000000000000000000000000000000000000000000, 8358812252600000000000000000000000000000000000000000000000000000000000000000000000000000000, 8357390737820000000000000000000000000000000000000000000000000000000000000000000000000000000, 8355983576030000000000000000000000000000000000000000000000000000000000000000000000000000000, 8354589957110000000000000000000000000000000000000000000000000000000000000000000000000000000, 8353209129560000000000000000000000000000000000000000000000000000000000000000000000000000000, 8351840395900000000000000000000000000000000000000000000000000000000000000000000000000000000, 8350483108370000000000000000000000000000000000000000000000000000000000000000000000000000000, 8349136664700000000000000000000000000000000000000000000000000000000000000000000000000000000, 8347800504310000000000000000000000000000000000000000000000000000000000000000000000000000000, 8346474104690000000000000000000000000000000000000000000000000000000000000000000000000000000, 8345156978200000000000000000000000000000000000000000000000000000000000000000000000000000000, 8343848669050000000000000000000000000000000000000000000000000000000000000000000000000000000, 8342548750680000000000000000000000000000000000000000000000000000000000000000000000000000000, 8341256823260000000000000000000000000000000000000000000000000000000000000000000000000000000, 8339972511550000000000000000000000000000000000000000000000000000000000000000000000000000000, 8338695462860000000000000000000000000000000000000000000000000000000000000000000000000000000, 8337425345300000000000000000000000000000000000000000000000000000000000000000000000000000000, 8336161846110000000000000000000000000000000000000000000000000000000000000000000000000000000]),
  (86364328657300, [8509602277850000000000000000000000000000000000000000000000000000000000000000000000000000000, 8506498246420000000000000000000000000000000000000000000000000000000000000000000000000000000, 8504784349230000000000000000000000000000000000000000000000000000000000000000000000000000000, 8503176591610000000000000000000000000000000000000000000000000000000000000000000000000000000, 8501500549230000000000000000000000000000000000000000000000000000000000000000000000000000000, 8499763094930000000000000000000000000000000000000000000000000000000000000000000000000000000, 8497994052390000000000000000000000000000000000000000000000000000000000000000000000000000000, 8496217914530000000000000000000000000000000000000000000000000000000000000000000000000000000, 8494450878260000000000000000000000000000000000000000000000000000000000000000000000000000000, 8492702603560000000000000000000000000000000000000000000000000000000000000000000000000000000, 8490978325600000000000000000000000000000000000000000000000000000000000000000000000000000000, 8489280473880000000000000000000000000000000000000000000000000000000000000000000000000000000, 8487609768690000000000000000000000000000000000000000000000000000000000000000000000000000000, 8485965925110000000000000000000000000000000000000000000000000000000000000000000000000000000, 8484348092560000000000000000000000000000000000000000000000000000000000000000000000000000000, 8482755124540000000000000000000000000000000000000000000000000000000000000000000000000000000, 8481185741530000000000000000000000000000000000000000000000000000000000000000000000000000000, 8479638627840000000000000000000000000000000000000000000000000000000000000000000000000000000, 8478112487650000000000000000000000000000000000000000000000000000000000000000000000000000000, 8476606076050000000000000000000000000000000000000000000000000000000000000000000000000000000, 8475118214960000000000000000000000000000000000000000000000000000000000000000000000000000000, 8473647799730000000000000000000000000000000000000000000000000000000000000000000000000000000, 8472193800430000000000000000000000000000000000000000000000000000000000000000000000000000000, 8470755259950000000000000000000000000000000000000000000000000000000000000000000000000000000, 8469331290350000000000000000000000000000000000000000000000000000000000000000000000000000000, 8467921068470000000000000000000000000000000000000000000000000000000000000000000000000000000, 8466523831100000000000000000000000000000000000000000000000000000000000000000000000000000000, 8465138870270000000000000000000000000000000000000000000000000000000000000000000000000000000, 8463765528620000000000000000000000000000000000000000000000000000000000000000000000000000000, 8462403195120000000000000000000000000000000000000000000000000000000000000000000000000000000, 8461051301070000000000000000000000000000000000000000000000000000000000000000000000000000000, 8459709316430000000000000000000000000000000000000000000000000000000000000000000000000000000, 8458376746480000000000000000000000000000000000000000000000000000000000000000000000000000000, 8457053128830000000000000000000000000000000000000000000000000000000000000000000000000000000, 8455738030640000000000000000000000000000000000000000000000000000000000000000000000000000000, 8454431046190000000000000000000000000000000000000000000000000000000000000000000000000000000, 8453131794630000000000000000000000000000000000000000000000000000000000000000000000000000000, 8451839917930000000000000000000000000000000000000000000000000000000000000000000000000000000, 8450555079130000000000000000000000000000000000000000000000000000000000000000000000000000000, 8449276960660000000000000000000000000000000000000000000000000000000000000000000000000000000]),
  (88468336673300, [8623293764560000000000000000000000000000000000000000000000000000000000000000000000000000000, 8620155175850000000000000000000000000000000000000000000000000000000000000000000000000000000, 8618407859970000000000000000000000000000000000000000000000000000000000000000000000000000000, 8616768180420000000000000000000000000000000000000000000000000000000000000000000000000000000, 8615060607650000000000000000000000000000000000000000000000000000000000000000000000000000000, 8613292380500000000000000000000000000000000000000000000000000000000000000000000000000000000, 8611493694760000000000000000000000000000000000000000000000000000000000000000000000000000000, 8609689216930000000000000000000000000000000000000000000000000000000000000000000000000000000, 8607895161160000000000000000000000000000000000000000000000000000000000000000000000000000000, 8606121113940000000000000000000000000000000000000000000000000000000000000000000000000000000, 8604372194570000000000000000000000000000000000000000000000000000000000000000000000000000000, 8602650704040000000000000000000000000000000000000000000000000000000000000000000000000000000, 8600957237640000000000000000000000000000000000000000000000000000000000000000000000000000000, 8599291396780000000000000000000000000000000000000000000000000000000000000000000000000000000, 8597652231390000000000000000000000000000000000000000000000000000000000000000000000000000000, 8596038509860000000000000000000000000000000000000000000000000000000000000000000000000000000, 8594448880960000000000000000000000000000000000000000000000000000000000000000000000000000000, 8592881969010000000000000000000000000000000000000000000000000000000000000000000000000000000, 8591336428210000000000000000000000000000000000000000000000000000000000000000000000000000000, 8589810972040000000000000000000000000000000000000000000000000000000000000000000000000000000, 8588304387650000000000000000000000000000000000000000000000000000000000000000000000000000000, 8586815541260000000000000000000000000000000000000000000000000000000000000000000000000000000, 8585343378340000000000000000000000000000000000000000000000000000000000000000000000000000000, 8583886920840000000000000000000000000000000000000000000000000000000000000000000000000000000, 8582445262880000000000000000000000000000000000000000000000000000000000000000000000000000000, 8581017565710000000000000000000000000000000000000000000000000000000000000000000000000000000, 8579603052530000000000000000000000000000000000000000000000000000000000000000000000000000000, 8578201003300000000000000000000000000000000000000000000000000000000000000000000000000000000, 8576810749920000000000000000000000000000000000000000000000000000000000000000000000000000000, 8575431671660000000000000000000000000000000000000000000000000000000000000000000000000000000, 8574063191000000000000000000000000000000000000000000000000000000000000000000000000000000000, 8572704769820000000000000000000000000000000000000000000000000000000000000000000000000000000, 8571355905960000000000000000000000000000000000000000000000000000000000000000000000000000000, 8570016130080000000000000000000000000000000000000000000000000000000000000000000000000000000, 8568685002880000000000000000000000000000000000000000000000000000000000000000000000000000000, 8567362112580000000000000000000000000000000000000000000000000000000000000000000000000000000, 8566047072590000000000000000000000000000000000000000000000000000000000000000000000000000000, 8564739519510000000000000000000000000000000000000000000000000000000000000000000000000000000, 8563439111260000000000000000000000000000000000000000000000000000000000000000000000000000000, 8562145525400000000000000000000000000000000000000000000000000000000000000000000000000000000]),
  (90572344689400, [8736833336020000000000000000000000000000000000000000000000000000000000000000000000000000000, 8733664552330000000000000000000000000000000000000000000000000000000000000000000000000000000, 8731884295730000000000000000000000000000000000000000000000000000000000000000000000000000000, 8730212477300000000000000000000000000000000000000000000000000000000000000000000000000000000, 8728472506460000000000000000000000000000000000000000000000000000000000000000000000000000000, 8726672410730000000000000000000000000000000000000000000000000000000000000000000000000000000, 8724842965510000000000000000000000000000000000000000000000000000000000000000000000000000000, 8723009064510000000000000000000000000000000000000000000000000000000000000000000000000000000, 8721186931170000000000000000000000000000000000000000000000000000000000000000000000000000000, 8719386056730000000000000000000000000000000000000000000000000000000000000000000000000000000, 8717611427170000000000000000000000000000000000000000000000000000000000000000000000000000000, 8715865205840000000000000000000000000000000000000000000000000000000000000000000000000000000, 8714147861280000000000000000000000000000000000000000000000000000000000000000000000000000000, 8712458884430000000000000000000000000000000000000000000000000000000000000000000000000000000, 8710797231740000000000000000000000000000000000000000000000000000000000000000000000000000000, 8709161593580000000000000000000000000000000000000000000000000000000000000000000000000000000, 8707550553910000000000000000000000000000000000000000000000000000000000000000000000000000000, 8705962683180000000000000000000000000000000000000000000000000000000000000000000000000000000, 8704396590590000000000000000000000000000000000000000000000000000000000000000000000000000000, 8702850951720000000000000000000000000000000000000000000000000000000000000000000000000000000, 8701324521520000000000000000000000000000000000000000000000000000000000000000000000000000000, 8699816138570000000000000000000000000000000000000000000000000000000000000000000000000000000, 8698324724430000000000000000000000000000000000000000000000000000000000000000000000000000000, 8696849280110000000000000000000000000000000000000000000000000000000000000000000000000000000, 8695388881280000000000000000000000000000000000000000000000000000000000000000000000000000000, 8693942672790000000000000000000000000000000000000000000000000000000000000000000000000000000, 8692509863130000000000000000000000000000000000000000000000000000000000000000000000000000000, 8691089719030000000000000000000000000000000000000000000000000000000000000000000000000000000, 8689681560370000000000000000000000000000000000000000000000000000000000000000000000000000000, 8688284755500000000000000000000000000000000000000000000000000000000000000000000000000000000, 8686898716860000000000000000000000000000000000000000000000000000000000000000000000000000000, 8685522897110000000000000000000000000000000000000000000000000000000000000000000000000000000, 8684156785570000000000000000000000000000000000000000000000000000000000000000000000000000000, 8682799905010000000000000000000000000000000000000000000000000000000000000000000000000000000, 8681451808790000000000000000000000000000000000000000000000000000000000000000000000000000000, 8680112078250000000000000000000000000000000000000000000000000000000000000000000000000000000, 8678780320400000000000000000000000000000000000000000000000000000000000000000000000000000000, 8677456165820000000000000000000000000000000000000000000000000000000000000000000000000000000, 8676139266750000000000000000000000000000000000000000000000000000000000000000000000000000000, 8674829295420000000000000000000000000000000000000000000000000000000000000000000000000000000]),
  (92676352705400, [8850254584740000000000000000000000000000000000000000000000000000000000000000000000000000000, 8847058709980000000000000000000000000000000000000000000000000000000000000000000000000000000, 8845244648950000000000000000000000000000000000000000000000000000000000000000000000000000000, 8843541967650000000000000000000000000000000000000000000000000000000000000000000000000000000, 8841772168370000000000000000000000000000000000000000000000000000000000000000000000000000000, 8839943063680000000000000000000000000000000000000000000000000000000000000000000000000000000, 8838085422980000000000000000000000000000000000000000000000000000000000000000000000000000000, 8836224117820000000000000000000000000000000000000000000000000000000000000000000000000000000, 8834375325370000000000000000000000000000000000000000000000000000000000000000000000000000000, 8832548480500000000000000000000000000000000000000000000000000000000000000000000000000000000, 8830748512540000000000000000000000000000000000000000000000000000000000000000000000000000000, 8828977532810000000000000000000000000000000000000000000000000000000000000000000000000000000, 8827235964280000000000000000000000000000000000000000000000000000000000000000000000000000000, 8825523258780000000000000000000000000000000000000000000000000000000000000000000000000000000, 8823838339290000000000000000000000000000000000000000000000000000000000000000000000000000000, 8822179867160000000000000000000000000000000000000000000000000000000000000000000000000000000, 8820546400740000000000000000000000000000000000000000000000000000000000000000000000000000000, 8818936487360000000000000000000000000000000000000000000000000000000000000000000000000000000, 8817348714900000000000000000000000000000000000000000000000000000000000000000000000000000000, 8815781739000000000000000000000000000000000000000000000000000000000000000000000000000000000, 8814234295780000000000000000000000000000000000000000000000000000000000000000000000000000000, 8812705205910000000000000000000000000000000000000000000000000000000000000000000000000000000, 8811193373880000000000000000000000000000000000000000000000000000000000000000000000000000000, 8809697784490000000000000000000000000000000000000000000000000000000000000000000000000000000, 8808217497970000000000000000000000000000000000000000000000000000000000000000000000000000000, 8806751644570000000000000000000000000000000000000000000000000000000000000000000000000000000, 8805299418950000000000000000000000000000000000000000000000000000000000000000000000000000000, 8803860074830000000000000000000000000000000000000000000000000000000000000000000000000000000, 8802432919850000000000000000000000000000000000000000000000000000000000000000000000000000000, 8801017310850000000000000000000000000000000000000000000000000000000000000000000000000000000, 8799612649480000000000000000000000000000000000000000000000000000000000000000000000000000000, 8798218378330000000000000000000000000000000000000000000000000000000000000000000000000000000, 8796833977250000000000000000000000000000000000000000000000000000000000000000000000000000000, 8795458960190000000000000000000000000000000000000000000000000000000000000000000000000000000, 8794092872210000000000000000000000000000000000000000000000000000000000000000000000000000000, 8792735286920000000000000000000000000000000000000000000000000000000000000000000000000000000, 8791385804060000000000000000000000000000000000000000000000000000000000000000000000000000000, 8790044047410000000000000000000000000000000000000000000000000000000000000000000000000000000, 8788709662820000000000000000000000000000000000000000000000000000000000000000000000000000000, 8787382316520000000000000000000000000000000000000000000000000000000000000000000000000000000]),
  (94780360721400, [8963609391870000000000000000000000000000000000000000000000000000000000000000000000000000000, 8960367728890000000000000000000000000000000000000000000000000000000000000000000000000000000, 8958520722080000000000000000000000000000000000000000000000000000000000000000000000000000000, 8956792368020000000000000000000000000000000000000000000000000000000000000000000000000000000, 8954998540970000000000000000000000000000000000000000000000000000000000000000000000000000000, 8953145568200000000000000000000000000000000000000000000000000000000000000000000000000000000, 8951263839130000000000000000000000000000000000000000000000000000000000000000000000000000000, 8949378193740000000000000000000000000000000000000000000000000000000000000000000000000000000, 8947504886160000000000000000000000000000000000000000000000000000000000000000000000000000000, 8945653451370000000000000000000000000000000000000000000000000000000000000000000000000000000, 8943828912190000000000000000000000000000000000000000000000000000000000000000000000000000000, 8942033458360000000000000000000000000000000000000000000000000000000000000000000000000000000, 8940267575350000000000000000000000000000000000000000000000000000000000000000000000000000000, 8938530763070000000000000000000000000000000000000000000000000000000000000000000000000000000, 8936821980200000000000000000000000000000000000000000000000000000000000000000000000000000000, 8935139913380000000000000000000000000000000000000000000000000000000000000000000000000000000, 8933483137570000000000000000000000000000000000000000000000000000000000000000000000000000000, 8931850209670000000000000000000000000000000000000000000000000000000000000000000000000000000, 8930239721360000000000000000000000000000000000000000000000000000000000000000000000000000000, 8928650327600000000000000000000000000000000000000000000000000000000000000000000000000000000, 8927080760280000000000000000000000000000000000000000000000000000000000000000000000000000000, 8925529833240000000000000000000000000000000000000000000000000000000000000000000000000000000, 8923996442200000000000000000000000000000000000000000000000000000000000000000000000000000000, 8922479561860000000000000000000000000000000000000000000000000000000000000000000000000000000, 8920978241530000000000000000000000000000000000000000000000000000000000000000000000000000000, 8919491600020000000000000000000000000000000000000000000000000000000000000000000000000000000, 8918018820420000000000000000000000000000000000000000000000000000000000000000000000000000000, 8916559144870000000000000000000000000000000000000000000000000000000000000000000000000000000, 8915111869680000000000000000000000000000000000000000000000000000000000000000000000000000000, 8913676340640000000000000000000000000000000000000000000000000000000000000000000000000000000, 8912251948790000000000000000000000000000000000000000000000000000000000000000000000000000000, 8910838126520000000000000000000000000000000000000000000000000000000000000000000000000000000, 8909434344000000000000000000000000000000000000000000000000000000000000000000000000000000000, 8908040105970000000000000000000000000000000000000000000000000000000000000000000000000000000, 8906654948770000000000000000000000000000000000000000000000000000000000000000000000000000000, 8905278437790000000000000000000000000000000000000000000000000000000000000000000000000000000, 8903910165000000000000000000000000000000000000000000000000000000000000000000000000000000000, 8902549746860000000000000000000000000000000000000000000000000000000000000000000000000000000, 8901196822360000000000000000000000000000000000000000000000000000000000000000000000000000000, 8899851051220000000000000000000000000000000000000000000000000000000000000000000000000000000]),
  (96884368737500, [9076854839670000000000000000000000000000000000000000000000000000000000000000000000000000000, 9073612941330000000000000000000000000000000000000000000000000000000000000000000000000000000, 9071754047290000000000000000000000000000000000000000000000000000000000000000000000000000000, 9070011618640000000000000000000000000000000000000000000000000000000000000000000000000000000, 9068200672900000000000000000000000000000000000000000000000000000000000000000000000000000000, 9066327982690000000000000000000000000000000000000000000000000000000000000000000000000000000, 9064424601990000000000000000000000000000000000000000000000000000000000000000000000000000000, 9062515958680000000000000000000000000000000000000000000000000000000000000000000000000000000, 9060618760890000000000000000000000000000000000000000000000000000000000000000000000000000000, 9058742877880000000000000000000000000000000000000000000000000000000000000000000000000000000, 9056893575370000000000000000000000000000000000000000000000000000000000000000000000000000000, 9055073219480000000000000000000000000000000000000000000000000000000000000000000000000000000, 9053282424000000000000000000000000000000000000000000000000000000000000000000000000000000000, 9051520782090000000000000000000000000000000000000000000000000000000000000000000000000000000, 9049787319660000000000000000000000000000000000000000000000000000000000000000000000000000000, 9048080771070000000000000000000000000000000000000000000000000000000000000000000000000000000, 9046399744210000000000000000000000000000000000000000000000000000000000000000000000000000000, 9044742817570000000000000000000000000000000000000000000000000000000000000000000000000000000, 9043108595860000000000000000000000000000000000000000000000000000000000000000000000000000000, 9041495740480000000000000000000000000000000000000000000000000000000000000000000000000000000, 9039902984780000000000000000000000000000000000000000000000000000000000000000000000000000000, 9038329140320000000000000000000000000000000000000000000000000000000000000000000000000000000, 9036773097800000000000000000000000000000000000000000000000000000000000000000000000000000000, 9035233824910000000000000000000000000000000000000000000000000000000000000000000000000000000, 9033710362530000000000000000000000000000000000000000000000000000000000000000000000000000000, 9032201820140000000000000000000000000000000000000000000000000000000000000000000000000000000, 9030707370910000000000000000000000000000000000000000000000000000000000000000000000000000000, 9029226246790000000000000000000000000000000000000000000000000000000000000000000000000000000, 9027757733810000000000000000000000000000000000000000000000000000000000000000000000000000000, 9026301167550000000000000000000000000000000000000000000000000000000000000000000000000000000, 9024855929070000000000000000000000000000000000000000000000000000000000000000000000000000000, 9023421441030000000000000000000000000000000000000000000000000000000000000000000000000000000, 9021997164220000000000000000000000000000000000000000000000000000000000000000000000000000000, 9020582594360000000000000000000000000000000000000000000000000000000000000000000000000000000, 9019177259220000000000000000000000000000000000000000000000000000000000000000000000000000000, 9017780715960000000000000000000000000000000000000000000000000000000000000000000000000000000, 9016392548780000000000000000000000000000000000000000000000000000000000000000000000000000000, 9015012366770000000000000000000000000000000000000000000000000000000000000000000000000000000, 9013639801890000000000000000000000000000000000000000000000000000000000000000000000000000000, 9012274507290000000000000000000000000000000000000000000000000000000000000000000000000000000]),
  (98988376753500, [9190179009010000000000000000000000000000000000000000000000000000000000000000000000000000000, 9186910944570000000000000000000000000000000000000000000000000000000000000000000000000000000, 9185033956690000000000000000000000000000000000000000000000000000000000000000000000000000000, 9183273354200000000000000000000000000000000000000000000000000000000000000000000000000000000, 9181441345830000000000000000000000000000000000000000000000000000000000000000000000000000000, 9179545150040000000000000000000000000000000000000000000000000000000000000000000000000000000, 9177616646150000000000000000000000000000000000000000000000000000000000000000000000000000000, 9175681922530000000000000000000000000000000000000000000000000000000000000000000000000000000, 9173758139120000000000000000000000000000000000000000000000000000000000000000000000000000000, 9171855459650000000000000000000000000000000000000000000000000000000000000000000000000000000, 9169979339570000000000000000000000000000000000000000000000000000000000000000000000000000000, 9168132267400000000000000000000000000000000000000000000000000000000000000000000000000000000, 9166314936010000000000000000000000000000000000000000000000000000000000000000000000000000000, 9164526989290000000000000000000000000000000000000000000000000000000000000000000000000000000, 9162767485010000000000000000000000000000000000000000000000000000000000000000000000000000000, 9161035176530000000000000000000000000000000000000000000000000000000000000000000000000000000, 9159328681810000000000000000000000000000000000000000000000000000000000000000000000000000000, 9157646583160000000000000000000000000000000000000000000000000000000000000000000000000000000, 9155987484640000000000000000000000000000000000000000000000000000000000000000000000000000000, 9154350043790000000000000000000000000000000000000000000000000000000000000000000000000000000, 9152732987800000000000000000000000000000000000000000000000000000000000000000000000000000000, 9151135120480000000000000000000000000000000000000000000000000000000000000000000000000000000, 9149555323580000000000000000000000000000000000000000000000000000000000000000000000000000000, 9147992555130000000000000000000000000000000000000000000000000000000000000000000000000000000, 9146445845850000000000000000000000000000000000000000000000000000000000000000000000000000000, 9144914294800000000000000000000000000000000000000000000000000000000000000000000000000000000, 9143397064660000000000000000000000000000000000000000000000000000000000000000000000000000000, 9141893376930000000000000000000000000000000000000000000000000000000000000000000000000000000, 9140402507340000000000000000000000000000000000000000000000000000000000000000000000000000000, 9138923781400000000000000000000000000000000000000000000000000000000000000000000000000000000, 9137456570400000000000000000000000000000000000000000000000000000000000000000000000000000000, 9136000287530000000000000000000000000000000000000000000000000000000000000000000000000000000, 9134554384500000000000000000000000000000000000000000000000000000000000000000000000000000000, 9133118348310000000000000000000000000000000000000000000000000000000000000000000000000000000, 9131691698390000000000000000000000000000000000000000000000000000000000000000000000000000000, 9130273983950000000000000000000000000000000000000000000000000000000000000000000000000000000, 9128864781630000000000000000000000000000000000000000000000000000000000000000000000000000000, 9127463693330000000000000000000000000000000000000000000000000000000000000000000000000000000, 9126070344200000000000000000000000000000000000000000000000000000000000000000000000000000000, 9124684380910000000000000000000000000000000000000000000000000000000000000000000000000000000]),
  (101092384770000, [9303685466930000000000000000000000000000000000000000000000000000000000000000000000000000000, 9300359833520000000000000000000000000000000000000000000000000000000000000000000000000000000, 9298438221400000000000000000000000000000000000000000000000000000000000000000000000000000000, 9296639286400000000000000000000000000000000000000000000000000000000000000000000000000000000, 9294771478400000000000000000000000000000000000000000000000000000000000000000000000000000000, 9292840887460000000000000000000000000000000000000000000000000000000000000000000000000000000, 9290879009330000000000000000000000000000000000000000000000000000000000000000000000000000000, 9288911789040000000000000000000000000000000000000000000000000000000000000000000000000000000, 9286956315770000000000000000000000000000000000000000000000000000000000000000000000000000000, 9285022699540000000000000000000000000000000000000000000000000000000000000000000000000000000, 9283116344010000000000000000000000000000000000000000000000000000000000000000000000000000000, 9281239685980000000000000000000000000000000000000000000000000000000000000000000000000000000, 9279393368180000000000000000000000000000000000000000000000000000000000000000000000000000000, 9277576987530000000000000000000000000000000000000000000000000000000000000000000000000000000, 9275789558830000000000000000000000000000000000000000000000000000000000000000000000000000000, 9274029796760000000000000000000000000000000000000000000000000000000000000000000000000000000, 9272296284750000000000000000000000000000000000000000000000000000000000000000000000000000000, 9270587574280000000000000000000000000000000000000000000000000000000000000000000000000000000, 9268902241830000000000000000000000000000000000000000000000000000000000000000000000000000000, 9267238920170000000000000000000000000000000000000000000000000000000000000000000000000000000, 9265596314140000000000000000000000000000000000000000000000000000000000000000000000000000000, 9263973207180000000000000000000000000000000000000000000000000000000000000000000000000000000, 9262368462460000000000000000000000000000000000000000000000000000000000000000000000000000000, 9260781020870000000000000000000000000000000000000000000000000000000000000000000000000000000, 9259209897280000000000000000000000000000000000000000000000000000000000000000000000000000000, 9257654176080000000000000000000000000000000000000000000000000000000000000000000000000000000, 9256113006230000000000000000000000000000000000000000000000000000000000000000000000000000000, 9254585596440000000000000000000000000000000000000000000000000000000000000000000000000000000, 9253071210410000000000000000000000000000000000000000000000000000000000000000000000000000000, 9251569162410000000000000000000000000000000000000000000000000000000000000000000000000000000, 9250078813120000000000000000000000000000000000000000000000000000000000000000000000000000000, 9248599565790000000000000000000000000000000000000000000000000000000000000000000000000000000, 9247130862730000000000000000000000000000000000000000000000000000000000000000000000000000000, 9245672182080000000000000000000000000000000000000000000000000000000000000000000000000000000, 9244223034930000000000000000000000000000000000000000000000000000000000000000000000000000000, 9242782962640000000000000000000000000000000000000000000000000000000000000000000000000000000, 9241351534400000000000000000000000000000000000000000000000000000000000000000000000000000000, 9239928345090000000000000000000000000000000000000000000000000000000000000000000000000000000, 9238513013240000000000000000000000000000000000000000000000000000000000000000000000000000000, 9237105179260000000000000000000000000000000000000000000000000000000000000000000000000000000]),
  (103196392786000, [9417310743490000000000000000000000000000000000000000000000000000000000000000000000000000000, 9413921705120000000000000000000000000000000000000000000000000000000000000000000000000000000, 9411951623000000000000000000000000000000000000000000000000000000000000000000000000000000000, 9410108886560000000000000000000000000000000000000000000000000000000000000000000000000000000, 9408199388520000000000000000000000000000000000000000000000000000000000000000000000000000000, 9406228753760000000000000000000000000000000000000000000000000000000000000000000000000000000, 9404228348890000000000000000000000000000000000000000000000000000000000000000000000000000000, 9402224037320000000000000000000000000000000000000000000000000000000000000000000000000000000, 9400232816960000000000000000000000000000000000000000000000000000000000000000000000000000000, 9398264690590000000000000000000000000000000000000000000000000000000000000000000000000000000, 9396324946220000000000000000000000000000000000000000000000000000000000000000000000000000000, 9394415905690000000000000000000000000000000000000000000000000000000000000000000000000000000, 9392538103830000000000000000000000000000000000000000000000000000000000000000000000000000000, 9390691040100000000000000000000000000000000000000000000000000000000000000000000000000000000, 9388873643170000000000000000000000000000000000000000000000000000000000000000000000000000000, 9387084552600000000000000000000000000000000000000000000000000000000000000000000000000000000, 9385322286600000000000000000000000000000000000000000000000000000000000000000000000000000000, 9383585340090000000000000000000000000000000000000000000000000000000000000000000000000000000, 9381872240480000000000000000000000000000000000000000000000000000000000000000000000000000000, 9380181577750000000000000000000000000000000000000000000000000000000000000000000000000000000, 9378512019340000000000000000000000000000000000000000000000000000000000000000000000000000000, 9376862315860000000000000000000000000000000000000000000000000000000000000000000000000000000, 9375231301540000000000000000000000000000000000000000000000000000000000000000000000000000000, 9373617891620000000000000000000000000000000000000000000000000000000000000000000000000000000, 9372021078230000000000000000000000000000000000000000000000000000000000000000000000000000000, 9370439925380000000000000000000000000000000000000000000000000000000000000000000000000000000, 9368873563810000000000000000000000000000000000000000000000000000000000000000000000000000000, 9367321185820000000000000000000000000000000000000000000000000000000000000000000000000000000, 9365782040270000000000000000000000000000000000000000000000000000000000000000000000000000000, 9364255427970000000000000000000000000000000000000000000000000000000000000000000000000000000, 9362740697330000000000000000000000000000000000000000000000000000000000000000000000000000000, 9361237240390000000000000000000000000000000000000000000000000000000000000000000000000000000, 9359744489130000000000000000000000000000000000000000000000000000000000000000000000000000000, 9358261912240000000000000000000000000000000000000000000000000000000000000000000000000000000, 9356789012040000000000000000000000000000000000000000000000000000000000000000000000000000000, 9355325321740000000000000000000000000000000000000000000000000000000000000000000000000000000, 9353870402990000000000000000000000000000000000000000000000000000000000000000000000000000000, 9352423843630000000000000000000000000000000000000000000000000000000000000000000000000000000, 9350985255600000000000000000000000000000000000000000000000000000000000000000000000000000000, 9349554273160000000000000000000000000000000000000000000000000000000000000000000000000000000])]
noncomputable def ttSpec2 : List (Nat × List Nat) := [
  (105300400802000, [9530965164930000000000000000000000000000000000000000000000000000000000000000000000000000000, 9527532107060000000000000000000000000000000000000000000000000000000000000000000000000000000, 9525531205770000000000000000000000000000000000000000000000000000000000000000000000000000000, 9523656096240000000000000000000000000000000000000000000000000000000000000000000000000000000, 9521711136320000000000000000000000000000000000000000000000000000000000000000000000000000000, 9519703176940000000000000000000000000000000000000000000000000000000000000000000000000000000, 9517664829530000000000000000000000000000000000000000000000000000000000000000000000000000000, 9515622784220000000000000000000000000000000000000000000000000000000000000000000000000000000, 9513594498290000000000000000000000000000000000000000000000000000000000000000000000000000000, 9511590189160000000000000000000000000000000000000000000000000000000000000000000000000000000, 9509615215280000000000000000000000000000000000000000000000000000000000000000000000000000000, 9507671890900000000000000000000000000000000000000000000000000000000000000000000000000000000, 9505760704580000000000000000000000000000000000000000000000000000000000000000000000000000000, 9503881092630000000000000000000000000000000000000000000000000000000000000000000000000000000, 9502031915420000000000000000000000000000000000000000000000000000000000000000000000000000000, 9500211744830000000000000000000000000000000000000000000000000000000000000000000000000000000, 9498419034970000000000000000000000000000000000000000000000000000000000000000000000000000000, 9496652221410000000000000000000000000000000000000000000000000000000000000000000000000000000, 9494909777410000000000000000000000000000000000000000000000000000000000000000000000000000000, 9493190244010000000000000000000000000000000000000000000000000000000000000000000000000000000, 9491492244680000000000000000000000000000000000000000000000000000000000000000000000000000000, 9489814490680000000000000000000000000000000000000000000000000000000000000000000000000000000, 9488155781180000000000000000000000000000000000000000000000000000000000000000000000000000000, 9486515000220000000000000000000000000000000000000000000000000000000000000000000000000000000, 9484891112170000000000000000000000000000000000000000000000000000000000000000000000000000000, 9483283156430000000000000000000000000000000000000000000000000000000000000000000000000000000, 9481690241810000000000000000000000000000000000000000000000000000000000000000000000000000000, 9480111541100000000000000000000000000000000000000000000000000000000000000000000000000000000, 9478546285800000000000000000000000000000000000000000000000000000000000000000000000000000000, 9476993761150000000000000000000000000000000000000000000000000000000000000000000000000000000, 9475453301640000000000000000000000000000000000000000000000000000000000000000000000000000000, 9473924286770000000000000000000000000000000000000000000000000000000000000000000000000000000, 9472406137220000000000000000000000000000000000000000000000000000000000000000000000000000000, 9470898311410000000000000000000000000000000000000000000000000000000000000000000000000000000, 9469400302340000000000000000000000000000000000000000000000000000000000000000000000000000000, 9467911634690000000000000000000000000000000000000000000000000000000000000000000000000000000, 9466431862320000000000000000000000000000000000000000000000000000000000000000000000000000000, 9464960565830000000000000000000000000000000000000000000000000000000000000000000000000000000, 9463497350540000000000000000000000000000000000000000000000000000000000000000000000000000000, 9462041844510000000000000000000000000000000000000000000000000000000000000000000000000000000]),
  (107404408818000, [9644680248370000000000000000000000000000000000000000000000000000000000000000000000000000000, 9641213559360000000000000000000000000000000000000000000000000000000000000000000000000000000, 9639186400720000000000000000000000000000000000000000000000000000000000000000000000000000000, 9637281867590000000000000000000000000000000000000000000000000000000000000000000000000000000, 9635303761930000000000000000000000000000000000000000000000000000000000000000000000000000000, 9633260198730000000000000000000000000000000000000000000000000000000000000000000000000000000, 9631185009580000000000000000000000000000000000000000000000000000000000000000000000000000000, 9629105740340000000000000000000000000000000000000000000000000000000000000000000000000000000, 9627040380090000000000000000000000000000000000000000000000000000000000000000000000000000000, 9624999453600000000000000000000000000000000000000000000000000000000000000000000000000000000, 9622988484230000000000000000000000000000000000000000000000000000000000000000000000000000000, 9621009863780000000000000000000000000000000000000000000000000000000000000000000000000000000, 9619064105200000000000000000000000000000000000000000000000000000000000000000000000000000000, 9617150637070000000000000000000000000000000000000000000000000000000000000000000000000000000, 9615268292850000000000000000000000000000000000000000000000000000000000000000000000000000000, 9613415606620000000000000000000000000000000000000000000000000000000000000000000000000000000, 9611590989020000000000000000000000000000000000000000000000000000000000000000000000000000000, 9609792830150000000000000000000000000000000000000000000000000000000000000000000000000000000, 9608019557920000000000000000000000000000000000000000000000000000000000000000000000000000000, 9606269669760000000000000000000000000000000000000000000000000000000000000000000000000000000, 9604541748020000000000000000000000000000000000000000000000000000000000000000000000000000000, 9602834465950000000000000000000000000000000000000000000000000000000000000000000000000000000, 9601146587890000000000000000000000000000000000000000000000000000000000000000000000000000000, 9599476966340000000000000000000000000000000000000000000000000000000000000000000000000000000, 9597824537240000000000000000000000000000000000000000000000000000000000000000000000000000000, 9596188314480000000000000000000000000000000000000000000000000000000000000000000000000000000, 9594567384080000000000000000000000000000000000000000000000000000000000000000000000000000000, 9592960898460000000000000000000000000000000000000000000000000000000000000000000000000000000, 9591368070950000000000000000000000000000000000000000000000000000000000000000000000000000000, 9589788170560000000000000000000000000000000000000000000000000000000000000000000000000000000, 9588220517250000000000000000000000000000000000000000000000000000000000000000000000000000000, 9586664477480000000000000000000000000000000000000000000000000000000000000000000000000000000, 9585119460250000000000000000000000000000000000000000000000000000000000000000000000000000000, 9583584913390000000000000000000000000000000000000000000000000000000000000000000000000000000, 9582060320330000000000000000000000000000000000000000000000000000000000000000000000000000000, 9580545197070000000000000000000000000000000000000000000000000000000000000000000000000000000, 9579039089500000000000000000000000000000000000000000000000000000000000000000000000000000000, 9577541570970000000000000000000000000000000000000000000000000000000000000000000000000000000, 9576052240090000000000000000000000000000000000000000000000000000000000000000000000000000000, 9574570718720000000000000000000000000000000000000000000000000000000000000000000000000000000]),
  (109508416834000, [9758538162540000000000000000000000000000000000000000000000000000000000000000000000000000000, 9755004122190000000000000000000000000000000000000000000000000000000000000000000000000000000, 9752934468100000000000000000000000000000000000000000000000000000000000000000000000000000000, 9750991773790000000000000000000000000000000000000000000000000000000000000000000000000000000, 9748976195600000000000000000000000000000000000000000000000000000000000000000000000000000000, 9746895253290000000000000000000000000000000000000000000000000000000000000000000000000000000, 9744782726770000000000000000000000000000000000000000000000000000000000000000000000000000000, 9742666229780000000000000000000000000000000000000000000000000000000000000000000000000000000, 9740563855110000000000000000000000000000000000000000000000000000000000000000000000000000000, 9738486235150000000000000000000000000000000000000000000000000000000000000000000000000000000, 9736438986420000000000000000000000000000000000000000000000000000000000000000000000000000000, 9734424570310000000000000000000000000000000000000000000000000000000000000000000000000000000, 9732443543760000000000000000000000000000000000000000000000000000000000000000000000000000000, 9730495356080000000000000000000000000000000000000000000000000000000000000000000000000000000, 9728578842530000000000000000000000000000000000000000000000000000000000000000000000000000000, 9726692524860000000000000000000000000000000000000000000000000000000000000000000000000000000, 9724834791740000000000000000000000000000000000000000000000000000000000000000000000000000000, 9723004005250000000000000000000000000000000000000000000000000000000000000000000000000000000, 9721198562150000000000000000000000000000000000000000000000000000000000000000000000000000000, 9719416927560000000000000000000000000000000000000000000000000000000000000000000000000000000, 9717657651940000000000000000000000000000000000000000000000000000000000000000000000000000000, 9715919377840000000000000000000000000000000000000000000000000000000000000000000000000000000, 9714200840760000000000000000000000000000000000000000000000000000000000000000000000000000000, 9712500866440000000000000000000000000000000000000000000000000000000000000000000000000000000, 9710818366290000000000000000000000000000000000000000000000000000000000000000000000000000000, 9709152331840000000000000000000000000000000000000000000000000000000000000000000000000000000, 9707501828840000000000000000000000000000000000000000000000000000000000000000000000000000000, 9705865991390000000000000000000000000000000000000000000000000000000000000000000000000000000, 9704244016250000000000000000000000000000000000000000000000000000000000000000000000000000000, 9702635157510000000000000000000000000000000000000000000000000000000000000000000000000000000, 9701038721600000000000000000000000000000000000000000000000000000000000000000000000000000000, 9699454062780000000000000000000000000000000000000000000000000000000000000000000000000000000, 9697880578940000000000000000000000000000000000000000000000000000000000000000000000000000000, 9696317707870000000000000000000000000000000000000000000000000000000000000000000000000000000, 9694764923780000000000000000000000000000000000000000000000000000000000000000000000000000000, 9693221734270000000000000000000000000000000000000000000000000000000000000000000000000000000, 9691687677500000000000000000000000000000000000000000000000000000000000000000000000000000000, 9690162319710000000000000000000000000000000000000000000000000000000000000000000000000000000, 9688645252930000000000000000000000000000000000000000000000000000000000000000000000000000000, 9687136092930000000000000000000000000000000000000000000000000000000000000000000000000000000]),
  (111612424850000, [9872449745770000000000000000000000000000000000000000000000000000000000000000000000000000000, 9868858507070000000000000000000000000000000000000000000000000000000000000000000000000000000, 9866748132410000000000000000000000000000000000000000000000000000000000000000000000000000000, 9864767452860000000000000000000000000000000000000000000000000000000000000000000000000000000, 9862714482720000000000000000000000000000000000000000000000000000000000000000000000000000000, 9860596332820000000000000000000000000000000000000000000000000000000000000000000000000000000, 9858446661520000000000000000000000000000000000000000000000000000000000000000000000000000000, 9856293067450000000000000000000000000000000000000000000000000000000000000000000000000000000, 9854153692710000000000000000000000000000000000000000000000000000000000000000000000000000000, 9852039248730000000000000000000000000000000000000000000000000000000000000000000000000000000, 9849955433600000000000000000000000000000000000000000000000000000000000000000000000000000000, 9847904776850000000000000000000000000000000000000000000000000000000000000000000000000000000, 9845887884000000000000000000000000000000000000000000000000000000000000000000000000000000000, 9843904233190000000000000000000000000000000000000000000000000000000000000000000000000000000, 9841952671770000000000000000000000000000000000000000000000000000000000000000000000000000000, 9840031720690000000000000000000000000000000000000000000000000000000000000000000000000000000, 9838139758740000000000000000000000000000000000000000000000000000000000000000000000000000000, 9836275132200000000000000000000000000000000000000000000000000000000000000000000000000000000, 9834436218590000000000000000000000000000000000000000000000000000000000000000000000000000000, 9832621462120000000000000000000000000000000000000000000000000000000000000000000000000000000, 9830829391830000000000000000000000000000000000000000000000000000000000000000000000000000000, 9829058629240000000000000000000000000000000000000000000000000000000000000000000000000000000, 9827307889580000000000000000000000000000000000000000000000000000000000000000000000000000000, 9825575979430000000000000000000000000000000000000000000000000000000000000000000000000000000, 9823861792250000000000000000000000000000000000000000000000000000000000000000000000000000000, 9822164302840000000000000000000000000000000000000000000000000000000000000000000000000000000, 9820482561480000000000000000000000000000000000000000000000000000000000000000000000000000000, 9818815687930000000000000000000000000000000000000000000000000000000000000000000000000000000, 9817162865740000000000000000000000000000000000000000000000000000000000000000000000000000000, 9815523336770000000000000000000000000000000000000000000000000000000000000000000000000000000, 9813896396190000000000000000000000000000000000000000000000000000000000000000000000000000000, 9812281387810000000000000000000000000000000000000000000000000000000000000000000000000000000, 9810677699890000000000000000000000000000000000000000000000000000000000000000000000000000000, 9809084761230000000000000000000000000000000000000000000000000000000000000000000000000000000, 9807502037750000000000000000000000000000000000000000000000000000000000000000000000000000000, 9805929029300000000000000000000000000000000000000000000000000000000000000000000000000000000, 9804365266850000000000000000000000000000000000000000000000000000000000000000000000000000000, 9802810309910000000000000000000000000000000000000000000000000000000000000000000000000000000, 9801263744190000000000000000000000000000000000000000000000000000000000000000000000000000000, 9799725179570000000000000000000000000000000000000000000000000000000000000000000000000000000]),
  (113716432866000, [9986398653790000000000000000000000000000000000000000000000000000000000000000000000000000000, 9982754780020000000000000000000000000000000000000000000000000000000000000000000000000000000, 9980609830450000000000000000000000000000000000000000000000000000000000000000000000000000000, 9978595080850000000000000000000000000000000000000000000000000000000000000000000000000000000, 9976506540510000000000000000000000000000000000000000000000000000000000000000000000000000000, 9974351609320000000000000000000000000000000000000000000000000000000000000000000000000000000, 9972164439260000000000000000000000000000000000000000000000000000000000000000000000000000000, 9969973018030000000000000000000000000000000000000000000000000000000000000000000000000000000, 9967795757810000000000000000000000000000000000000000000000000000000000000000000000000000000, 9965643548030000000000000000000000000000000000000000000000000000000000000000000000000000000, 9963522198640000000000000000000000000000000000000000000000000000000000000000000000000000000, 9961434304970000000000000000000000000000000000000000000000000000000000000000000000000000000, 9959380506880000000000000000000000000000000000000000000000000000000000000000000000000000000, 9957360296150000000000000000000000000000000000000000000000000000000000000000000000000000000, 9955372520570000000000000000000000000000000000000000000000000000000000000000000000000000000, 9953415693650000000000000000000000000000000000000000000000000000000000000000000000000000000, 9951488182330000000000000000000000000000000000000000000000000000000000000000000000000000000, 9949588318880000000000000000000000000000000000000000000000000000000000000000000000000000000, 9947714465960000000000000000000000000000000000000000000000000000000000000000000000000000000, 9945865052920000000000000000000000000000000000000000000000000000000000000000000000000000000, 9944038594310000000000000000000000000000000000000000000000000000000000000000000000000000000, 9942233697670000000000000000000000000000000000000000000000000000000000000000000000000000000, 9940449064940000000000000000000000000000000000000000000000000000000000000000000000000000000, 9938683490000000000000000000000000000000000000000000000000000000000000000000000000000000000, 9936935854240000000000000000000000000000000000000000000000000000000000000000000000000000000, 9935205120940000000000000000000000000000000000000000000000000000000000000000000000000000000, 9933490329430000000000000000000000000000000000000000000000000000000000000000000000000000000, 9931790589000000000000000000000000000000000000000000000000000000000000000000000000000000000, 9930105073250000000000000000000000000000000000000000000000000000000000000000000000000000000, 9928433014530000000000000000000000000000000000000000000000000000000000000000000000000000000, 9926773698970000000000000000000000000000000000000000000000000000000000000000000000000000000, 9925126461780000000000000000000000000000000000000000000000000000000000000000000000000000000, 9923490683020000000000000000000000000000000000000000000000000000000000000000000000000000000, 9921865783710000000000000000000000000000000000000000000000000000000000000000000000000000000, 9920251222380000000000000000000000000000000000000000000000000000000000000000000000000000000, 9918646491860000000000000000000000000000000000000000000000000000000000000000000000000000000, 9917051116460000000000000000000000000000000000000000000000000000000000000000000000000000000, 9915464649370000000000000000000000000000000000000000000000000000000000000000000000000000000, 9913886670310000000000000000000000000000000000000000000000000000000000000000000000000000000, 9912316783500000000000000000000000000000000000000000000000000000000000000000000000000000000]),
  (115820440882000, [10100435033300000000000000000000000000000000000000000000000000000000000000000000000000000000, 10096719320700000000000000000000000000000000000000000000000000000000000000000000000000000000, 10094529519200000000000000000000000000000000000000000000000000000000000000000000000000000000, 10092474233800000000000000000000000000000000000000000000000000000000000000000000000000000000, 10090345273900000000000000000000000000000000000000000000000000000000000000000000000000000000, 10088149552100000000000000000000000000000000000000000000000000000000000000000000000000000000, 10085921445400000000000000000000000000000000000000000000000000000000000000000000000000000000, 10083689212100000000000000000000000000000000000000000000000000000000000000000000000000000000, 10081471450200000000000000000000000000000000000000000000000000000000000000000000000000000000, 10079279148600000000000000000000000000000000000000000000000000000000000000000000000000000000, 10077118154800000000000000000000000000000000000000000000000000000000000000000000000000000000, 10074991064500000000000000000000000000000000000000000000000000000000000000000000000000000000, 10072898497700000000000000000000000000000000000000000000000000000000000000000000000000000000, 10070839917900000000000000000000000000000000000000000000000000000000000000000000000000000000, 10068814142800000000000000000000000000000000000000000000000000000000000000000000000000000000, 10066819657200000000000000000000000000000000000000000000000000000000000000000000000000000000, 10064854802600000000000000000000000000000000000000000000000000000000000000000000000000000000, 10062917889100000000000000000000000000000000000000000000000000000000000000000000000000000000, 10061007260400000000000000000000000000000000000000000000000000000000000000000000000000000000, 10059121329500000000000000000000000000000000000000000000000000000000000000000000000000000000, 10057258596700000000000000000000000000000000000000000000000000000000000000000000000000000000, 10055417656900000000000000000000000000000000000000000000000000000000000000000000000000000000, 10053597200500000000000000000000000000000000000000000000000000000000000000000000000000000000, 10051796010900000000000000000000000000000000000000000000000000000000000000000000000000000000, 10050012959600000000000000000000000000000000000000000000000000000000000000000000000000000000, 10048247000300000000000000000000000000000000000000000000000000000000000000000000000000000000, 10046497163300000000000000000000000000000000000000000000000000000000000000000000000000000000, 10044762549100000000000000000000000000000000000000000000000000000000000000000000000000000000, 10043042322800000000000000000000000000000000000000000000000000000000000000000000000000000000, 10041335708500000000000000000000000000000000000000000000000000000000000000000000000000000000, 10039641984400000000000000000000000000000000000000000000000000000000000000000000000000000000, 10037960478000000000000000000000000000000000000000000000000000000000000000000000000000000000, 10036290561900000000000000000000000000000000000000000000000000000000000000000000000000000000, 10034631649900000000000000000000000000000000000000000000000000000000000000000000000000000000, 10032983193600000000000000000000000000000000000000000000000000000000000000000000000000000000, 10031344679300000000000000000000000000000000000000000000000000000000000000000000000000000000, 10029715624900000000000000000000000000000000000000000000000000000000000000000000000000000000, 10028095577500000000000000000000000000000000000000000000000000000000000000000000000000000000, 10026484111200000000000000000000000000000000000000000000000000000000000000000000000000000000, 10024880824400000000000000000000000000000000000000000000000000000000000000000000000000000000]),
  (117924448898000, [10214496833900000000000000000000000000000000000000000000000000000000000000000000000000000000, 10210718270100000000000000000000000000000000000000000000000000000000000000000000000000000000, 10208480580700000000000000000000000000000000000000000000000000000000000000000000000000000000, 10206379386400000000000000000000000000000000000000000000000000000000000000000000000000000000, 10204204718800000000000000000000000000000000000000000000000000000000000000000000000000000000, 10201963478700000000000000000000000000000000000000000000000000000000000000000000000000000000, 10199690265200000000000000000000000000000000000000000000000000000000000000000000000000000000, 10197413508900000000000000000000000000000000000000000000000000000000000000000000000000000000, 10195151893600000000000000000000000000000000000000000000000000000000000000000000000000000000, 10192916424000000000000000000000000000000000000000000000000000000000000000000000000000000000, 10190712920400000000000000000000000000000000000000000000000000000000000000000000000000000000, 10188543928600000000000000000000000000000000000000000000000000000000000000000000000000000000, 10186410011200000000000000000000000000000000000000000000000000000000000000000000000000000000, 10184310575100000000000000000000000000000000000000000000000000000000000000000000000000000000, 10182244386400000000000000000000000000000000000000000000000000000000000000000000000000000000, 10180209885100000000000000000000000000000000000000000000000000000000000000000000000000000000, 10178205374600000000000000000000000000000000000000000000000000000000000000000000000000000000, 10176229132900000000000000000000000000000000000000000000000000000000000000000000000000000000, 10174279476900000000000000000000000000000000000000000000000000000000000000000000000000000000, 10172354796800000000000000000000000000000000000000000000000000000000000000000000000000000000, 10170453573400000000000000000000000000000000000000000000000000000000000000000000000000000000, 10168574384700000000000000000000000000000000000000000000000000000000000000000000000000000000, 10166715906400000000000000000000000000000000000000000000000000000000000000000000000000000000, 10164876908300000000000000000000000000000000000000000000000000000000000000000000000000000000, 10163056249500000000000000000000000000000000000000000000000000000000000000000000000000000000, 10161252872800000000000000000000000000000000000000000000000000000000000000000000000000000000, 10159465797800000000000000000000000000000000000000000000000000000000000000000000000000000000, 10157694115200000000000000000000000000000000000000000000000000000000000000000000000000000000, 10155936980800000000000000000000000000000000000000000000000000000000000000000000000000000000, 10154193609700000000000000000000000000000000000000000000000000000000000000000000000000000000, 10152463271800000000000000000000000000000000000000000000000000000000000000000000000000000000, 10150745286500000000000000000000000000000000000000000000000000000000000000000000000000000000, 10149039018800000000000000000000000000000000000000000000000000000000000000000000000000000000, 10147343875100000000000000000000000000000000000000000000000000000000000000000000000000000000, 10145659300200000000000000000000000000000000000000000000000000000000000000000000000000000000, 10143984773500000000000000000000000000000000000000000000000000000000000000000000000000000000, 10142319806700000000000000000000000000000000000000000000000000000000000000000000000000000000, 10140663940900000000000000000000000000000000000000000000000000000000000000000000000000000000, 10139016744200000000000000000000000000000000000000000000000000000000000000000000000000000000, 10137377809900000000000000000000000000000000000000000000000000000000000000000000000000000000]),
  (120028456914000, [10328524865500000000000000000000000000000000000000000000000000000000000000000000000000000000, 10324684370300000000000000000000000000000000000000000000000000000000000000000000000000000000, 10322400987400000000000000000000000000000000000000000000000000000000000000000000000000000000, 10320254773200000000000000000000000000000000000000000000000000000000000000000000000000000000, 10318033986300000000000000000000000000000000000000000000000000000000000000000000000000000000, 10315745855400000000000000000000000000000000000000000000000000000000000000000000000000000000, 10313425513400000000000000000000000000000000000000000000000000000000000000000000000000000000, 10311101800900000000000000000000000000000000000000000000000000000000000000000000000000000000, 10308793654300000000000000000000000000000000000000000000000000000000000000000000000000000000, 10306512208400000000000000000000000000000000000000000000000000000000000000000000000000000000, 10304263331500000000000000000000000000000000000000000000000000000000000000000000000000000000, 10302049569300000000000000000000000000000000000000000000000000000000000000000000000000000000, 10299871458200000000000000000000000000000000000000000000000000000000000000000000000000000000, 10297728367300000000000000000000000000000000000000000000000000000000000000000000000000000000, 10295619020600000000000000000000000000000000000000000000000000000000000000000000000000000000, 10293541816300000000000000000000000000000000000000000000000000000000000000000000000000000000, 10291495018500000000000000000000000000000000000000000000000000000000000000000000000000000000, 10289476869200000000000000000000000000000000000000000000000000000000000000000000000000000000, 10287485652400000000000000000000000000000000000000000000000000000000000000000000000000000000, 10285519729200000000000000000000000000000000000000000000000000000000000000000000000000000000, 10283577554400000000000000000000000000000000000000000000000000000000000000000000000000000000, 10281657682800000000000000000000000000000000000000000000000000000000000000000000000000000000, 10279758769100000000000000000000000000000000000000000000000000000000000000000000000000000000, 10277879564700000000000000000000000000000000000000000000000000000000000000000000000000000000, 10276018912100000000000000000000000000000000000000000000000000000000000000000000000000000000, 10274175738900000000000000000000000000000000000000000000000000000000000000000000000000000000, 10272349051000000000000000000000000000000000000000000000000000000000000000000000000000000000, 10270537926800000000000000000000000000000000000000000000000000000000000000000000000000000000, 10268741510500000000000000000000000000000000000000000000000000000000000000000000000000000000, 10266959007000000000000000000000000000000000000000000000000000000000000000000000000000000000, 10265189676200000000000000000000000000000000000000000000000000000000000000000000000000000000, 10263432828800000000000000000000000000000000000000000000000000000000000000000000000000000000, 10261687821100000000000000000000000000000000000000000000000000000000000000000000000000000000, 10259954052100000000000000000000000000000000000000000000000000000000000000000000000000000000, 10258230959100000000000000000000000000000000000000000000000000000000000000000000000000000000, 10256518014600000000000000000000000000000000000000000000000000000000000000000000000000000000, 10254814724000000000000000000000000000000000000000000000000000000000000000000000000000000000, 10253120622200000000000000000000000000000000000000000000000000000000000000000000000000000000, 10251435271600000000000000000000000000000000000000000000000000000000000000000000000000000000, 10249758260000000000000000000000000000000000000000000000000000000000000000000000000000000000]),
  (122132464930000, [10442471781700000000000000000000000000000000000000000000000000000000000000000000000000000000, 10438561881800000000000000000000000000000000000000000000000000000000000000000000000000000000, 10436230583700000000000000000000000000000000000000000000000000000000000000000000000000000000, 10434039371900000000000000000000000000000000000000000000000000000000000000000000000000000000, 10431772580800000000000000000000000000000000000000000000000000000000000000000000000000000000, 10429437059700000000000000000000000000000000000000000000000000000000000000000000000000000000, 10427068408700000000000000000000000000000000000000000000000000000000000000000000000000000000, 10424696004200000000000000000000000000000000000000000000000000000000000000000000000000000000, 10422339188300000000000000000000000000000000000000000000000000000000000000000000000000000000, 10420009356900000000000000000000000000000000000000000000000000000000000000000000000000000000, 10417712528000000000000000000000000000000000000000000000000000000000000000000000000000000000, 10415451321100000000000000000000000000000000000000000000000000000000000000000000000000000000, 10413226298100000000000000000000000000000000000000000000000000000000000000000000000000000000, 10411036824100000000000000000000000000000000000000000000000000000000000000000000000000000000, 10408881602100000000000000000000000000000000000000000000000000000000000000000000000000000000, 10406759000200000000000000000000000000000000000000000000000000000000000000000000000000000000, 10404667247900000000000000000000000000000000000000000000000000000000000000000000000000000000, 10402604551900000000000000000000000000000000000000000000000000000000000000000000000000000000, 10400569161800000000000000000000000000000000000000000000000000000000000000000000000000000000, 10398559406000000000000000000000000000000000000000000000000000000000000000000000000000000000, 10396573709100000000000000000000000000000000000000000000000000000000000000000000000000000000, 10394610598300000000000000000000000000000000000000000000000000000000000000000000000000000000, 10392668703600000000000000000000000000000000000000000000000000000000000000000000000000000000, 10390746754000000000000000000000000000000000000000000000000000000000000000000000000000000000, 10388843572200000000000000000000000000000000000000000000000000000000000000000000000000000000, 10386958067700000000000000000000000000000000000000000000000000000000000000000000000000000000, 10385089230800000000000000000000000000000000000000000000000000000000000000000000000000000000, 10383236125200000000000000000000000000000000000000000000000000000000000000000000000000000000, 10381397882600000000000000000000000000000000000000000000000000000000000000000000000000000000, 10379573696100000000000000000000000000000000000000000000000000000000000000000000000000000000, 10377762815200000000000000000000000000000000000000000000000000000000000000000000000000000000, 10375964540900000000000000000000000000000000000000000000000000000000000000000000000000000000, 10374178221100000000000000000000000000000000000000000000000000000000000000000000000000000000, 10372403246400000000000000000000000000000000000000000000000000000000000000000000000000000000, 10370639046800000000000000000000000000000000000000000000000000000000000000000000000000000000, 10368885088300000000000000000000000000000000000000000000000000000000000000000000000000000000, 10367140869500000000000000000000000000000000000000000000000000000000000000000000000000000000, 10365405919700000000000000000000000000000000000000000000000000000000000000000000000000000000, 10363679795700000000000000000000000000000000000000000000000000000000000000000000000000000000, 10361962080000000000000000000000000000000000000000000000000000000000000000000000000000000000]),
  (124236472946000, [10556261237200000000000000000000000000000000000000000000000000000000000000000000000000000000, 10552287387000000000000000000000000000000000000000000000000000000000000000000000000000000000, 10549908905800000000000000000000000000000000000000000000000000000000000000000000000000000000, 10547670940500000000000000000000000000000000000000000000000000000000000000000000000000000000, 10545355593700000000000000000000000000000000000000000000000000000000000000000000000000000000, 10542970054100000000000000000000000000000000000000000000000000000000000000000000000000000000, 10540550562600000000000000000000000000000000000000000000000000000000000000000000000000000000, 10538127016200000000000000000000000000000000000000000000000000000000000000000000000000000000, 10535719115900000000000000000000000000000000000000000000000000000000000000000000000000000000, 10533338485000000000000000000000000000000000000000000000000000000000000000000000000000000000, 10530991274200000000000000000000000000000000000000000000000000000000000000000000000000000000, 10528680170700000000000000000000000000000000000000000000000000000000000000000000000000000000, 10526405761400000000000000000000000000000000000000000000000000000000000000000000000000000000, 10524167408500000000000000000000000000000000000000000000000000000000000000000000000000000000, 10521963795600000000000000000000000000000000000000000000000000000000000000000000000000000000, 10519793262200000000000000000000000000000000000000000000000000000000000000000000000000000000, 10517654004400000000000000000000000000000000000000000000000000000000000000000000000000000000, 10515544194300000000000000000000000000000000000000000000000000000000000000000000000000000000, 10513462047400000000000000000000000000000000000000000000000000000000000000000000000000000000, 10511405859900000000000000000000000000000000000000000000000000000000000000000000000000000000, 10509374026300000000000000000000000000000000000000000000000000000000000000000000000000000000, 10507365046700000000000000000000000000000000000000000000000000000000000000000000000000000000, 10505377526500000000000000000000000000000000000000000000000000000000000000000000000000000000, 10503410172500000000000000000000000000000000000000000000000000000000000000000000000000000000, 10501461787700000000000000000000000000000000000000000000000000000000000000000000000000000000, 10499531264100000000000000000000000000000000000000000000000000000000000000000000000000000000, 10497617576300000000000000000000000000000000000000000000000000000000000000000000000000000000, 10495719774300000000000000000000000000000000000000000000000000000000000000000000000000000000, 10493836977100000000000000000000000000000000000000000000000000000000000000000000000000000000, 10491968366700000000000000000000000000000000000000000000000000000000000000000000000000000000, 10490113182600000000000000000000000000000000000000000000000000000000000000000000000000000000, 10488270716700000000000000000000000000000000000000000000000000000000000000000000000000000000, 10486440308500000000000000000000000000000000000000000000000000000000000000000000000000000000, 10484621341300000000000000000000000000000000000000000000000000000000000000000000000000000000, 10482813238000000000000000000000000000000000000000000000000000000000000000000000000000000000, 10481015458300000000000000000000000000000000000000000000000000000000000000000000000000000000, 10479227494900000000000000000000000000000000000000000000000000000000000000000000000000000000, 10477448871500000000000000000000000000000000000000000000000000000000000000000000000000000000, 10475679140000000000000000000000000000000000000000000000000000000000000000000000000000000000, 10473917878000000000000000000000000000000000000000000000000000000000000000000000000000000000]),
  (126340480962000, [10669835965100000000000000000000000000000000000000000000000000000000000000000000000000000000, 10665798372400000000000000000000000000000000000000000000000000000000000000000000000000000000, 10663367295000000000000000000000000000000000000000000000000000000000000000000000000000000000, 10661076272200000000000000000000000000000000000000000000000000000000000000000000000000000000, 10658706942800000000000000000000000000000000000000000000000000000000000000000000000000000000, 10656267018800000000000000000000000000000000000000000000000000000000000000000000000000000000, 10653793136100000000000000000000000000000000000000000000000000000000000000000000000000000000, 10651315441900000000000000000000000000000000000000000000000000000000000000000000000000000000, 10648853789600000000000000000000000000000000000000000000000000000000000000000000000000000000, 10646419886800000000000000000000000000000000000000000000000000000000000000000000000000000000, 10644019921100000000000000000000000000000000000000000000000000000000000000000000000000000000, 10641656583800000000000000000000000000000000000000000000000000000000000000000000000000000000, 10639330445500000000000000000000000000000000000000000000000000000000000000000000000000000000, 10637040840100000000000000000000000000000000000000000000000000000000000000000000000000000000, 10634786417200000000000000000000000000000000000000000000000000000000000000000000000000000000, 10632565479800000000000000000000000000000000000000000000000000000000000000000000000000000000, 10630376188700000000000000000000000000000000000000000000000000000000000000000000000000000000, 10628216682000000000000000000000000000000000000000000000000000000000000000000000000000000000, 10626085143700000000000000000000000000000000000000000000000000000000000000000000000000000000, 10623979841500000000000000000000000000000000000000000000000000000000000000000000000000000000, 10621899144400000000000000000000000000000000000000000000000000000000000000000000000000000000, 10619841529300000000000000000000000000000000000000000000000000000000000000000000000000000000, 10617805581000000000000000000000000000000000000000000000000000000000000000000000000000000000, 10615789988100000000000000000000000000000000000000000000000000000000000000000000000000000000, 10613793537400000000000000000000000000000000000000000000000000000000000000000000000000000000, 10611815106500000000000000000000000000000000000000000000000000000000000000000000000000000000, 10609853656700000000000000000000000000000000000000000000000000000000000000000000000000000000, 10607908226600000000000000000000000000000000000000000000000000000000000000000000000000000000, 10605977924700000000000000000000000000000000000000000000000000000000000000000000000000000000, 10604061923700000000000000000000000000000000000000000000000000000000000000000000000000000000, 10602159454300000000000000000000000000000000000000000000000000000000000000000000000000000000, 10600269800800000000000000000000000000000000000000000000000000000000000000000000000000000000, 10598392295500000000000000000000000000000000000000000000000000000000000000000000000000000000, 10596526315100000000000000000000000000000000000000000000000000000000000000000000000000000000, 10594671276600000000000000000000000000000000000000000000000000000000000000000000000000000000, 10592826633900000000000000000000000000000000000000000000000000000000000000000000000000000000, 10590991874700000000000000000000000000000000000000000000000000000000000000000000000000000000, 10589166517800000000000000000000000000000000000000000000000000000000000000000000000000000000, 10587350110400000000000000000000000000000000000000000000000000000000000000000000000000000000, 10585542226000000000000000000000000000000000000000000000000000000000000000000000000000000000]),
  (128444488978000, [10783140318100000000000000000000000000000000000000000000000000000000000000000000000000000000, 10779013402900000000000000000000000000000000000000000000000000000000000000000000000000000000, 10776514981300000000000000000000000000000000000000000000000000000000000000000000000000000000, 10774163293900000000000000000000000000000000000000000000000000000000000000000000000000000000, 10771735486000000000000000000000000000000000000000000000000000000000000000000000000000000000, 10769237892200000000000000000000000000000000000000000000000000000000000000000000000000000000, 10766706811900000000000000000000000000000000000000000000000000000000000000000000000000000000, 10764172373900000000000000000000000000000000000000000000000000000000000000000000000000000000, 10761654473700000000000000000000000000000000000000000000000000000000000000000000000000000000, 10759164844500000000000000000000000000000000000000000000000000000000000000000000000000000000, 10756709670600000000000000000000000000000000000000000000000000000000000000000000000000000000, 10754291619200000000000000000000000000000000000000000000000000000000000000000000000000000000, 10751911224400000000000000000000000000000000000000000000000000000000000000000000000000000000, 10749567779400000000000000000000000000000000000000000000000000000000000000000000000000000000, 10747259893300000000000000000000000000000000000000000000000000000000000000000000000000000000, 10744985831200000000000000000000000000000000000000000000000000000000000000000000000000000000, 10742743719500000000000000000000000000000000000000000000000000000000000000000000000000000000, 10740531666200000000000000000000000000000000000000000000000000000000000000000000000000000000, 10738347828900000000000000000000000000000000000000000000000000000000000000000000000000000000, 10736190452300000000000000000000000000000000000000000000000000000000000000000000000000000000, 10734057885300000000000000000000000000000000000000000000000000000000000000000000000000000000, 10731948587100000000000000000000000000000000000000000000000000000000000000000000000000000000, 10729861127100000000000000000000000000000000000000000000000000000000000000000000000000000000, 10727794180300000000000000000000000000000000000000000000000000000000000000000000000000000000, 10725746521000000000000000000000000000000000000000000000000000000000000000000000000000000000, 10723717015800000000000000000000000000000000000000000000000000000000000000000000000000000000, 10721704616300000000000000000000000000000000000000000000000000000000000000000000000000000000, 10719708351800000000000000000000000000000000000000000000000000000000000000000000000000000000, 10717727322700000000000000000000000000000000000000000000000000000000000000000000000000000000, 10715760693800000000000000000000000000000000000000000000000000000000000000000000000000000000, 10713807689100000000000000000000000000000000000000000000000000000000000000000000000000000000, 10711867586200000000000000000000000000000000000000000000000000000000000000000000000000000000, 10709939711600000000000000000000000000000000000000000000000000000000000000000000000000000000, 10708023436200000000000000000000000000000000000000000000000000000000000000000000000000000000, 10706118171800000000000000000000000000000000000000000000000000000000000000000000000000000000, 10704223367400000000000000000000000000000000000000000000000000000000000000000000000000000000, 10702338506200000000000000000000000000000000000000000000000000000000000000000000000000000000, 10700463102500000000000000000000000000000000000000000000000000000000000000000000000000000000, 10698596699500000000000000000000000000000000000000000000000000000000000000000000000000000000, 10696738867000000000000000000000000000000000000000000000000000000000000000000000000000000000]),
  (130548496994000, [10896030404900000000000000000000000000000000000000000000000000000000000000000000000000000000, 10891805063500000000000000000000000000000000000000000000000000000000000000000000000000000000, 10889239999800000000000000000000000000000000000000000000000000000000000000000000000000000000, 10886828340600000000000000000000000000000000000000000000000000000000000000000000000000000000, 10884341410500000000000000000000000000000000000000000000000000000000000000000000000000000000, 10881784507300000000000000000000000000000000000000000000000000000000000000000000000000000000, 10879194009200000000000000000000000000000000000000000000000000000000000000000000000000000000, 10876600280900000000000000000000000000000000000000000000000000000000000000000000000000000000, 10874023390500000000000000000000000000000000000000000000000000000000000000000000000000000000, 10871475160500000000000000000000000000000000000000000000000000000000000000000000000000000000, 10868961804700000000000000000000000000000000000000000000000000000000000000000000000000000000, 10866485983800000000000000000000000000000000000000000000000000000000000000000000000000000000, 10864048207800000000000000000000000000000000000000000000000000000000000000000000000000000000, 10861647738200000000000000000000000000000000000000000000000000000000000000000000000000000000, 10859283151100000000000000000000000000000000000000000000000000000000000000000000000000000000, 10856952680400000000000000000000000000000000000000000000000000000000000000000000000000000000, 10854654424400000000000000000000000000000000000000000000000000000000000000000000000000000000, 10852386465900000000000000000000000000000000000000000000000000000000000000000000000000000000, 10850146941000000000000000000000000000000000000000000000000000000000000000000000000000000000, 10847934075600000000000000000000000000000000000000000000000000000000000000000000000000000000, 10845746202000000000000000000000000000000000000000000000000000000000000000000000000000000000, 10843581765200000000000000000000000000000000000000000000000000000000000000000000000000000000, 10841439321700000000000000000000000000000000000000000000000000000000000000000000000000000000, 10839317535000000000000000000000000000000000000000000000000000000000000000000000000000000000, 10837215169100000000000000000000000000000000000000000000000000000000000000000000000000000000, 10835131081200000000000000000000000000000000000000000000000000000000000000000000000000000000, 10833064214100000000000000000000000000000000000000000000000000000000000000000000000000000000, 10831013589300000000000000000000000000000000000000000000000000000000000000000000000000000000, 10828978299500000000000000000000000000000000000000000000000000000000000000000000000000000000, 10826957503000000000000000000000000000000000000000000000000000000000000000000000000000000000, 10824950417200000000000000000000000000000000000000000000000000000000000000000000000000000000, 10822956313700000000000000000000000000000000000000000000000000000000000000000000000000000000, 10820974513300000000000000000000000000000000000000000000000000000000000000000000000000000000, 10819004381800000000000000000000000000000000000000000000000000000000000000000000000000000000, 10817045326000000000000000000000000000000000000000000000000000000000000000000000000000000000, 10815096790300000000000000000000000000000000000000000000000000000000000000000000000000000000, 10813158253300000000000000000000000000000000000000000000000000000000000000000000000000000000, 10811229225500000000000000000000000000000000000000000000000000000000000000000000000000000000, 10809309246200000000000000000000000000000000000000000000000000000000000000000000000000000000, 10807397881500000000000000000000000000000000000000000000000000000000000000000000000000000000]),
  (132652505010000, [11008355986700000000000000000000000000000000000000000000000000000000000000000000000000000000, 11004063187700000000000000000000000000000000000000000000000000000000000000000000000000000000, 11001440345600000000000000000000000000000000000000000000000000000000000000000000000000000000, 10998968962900000000000000000000000000000000000000000000000000000000000000000000000000000000, 10996420193200000000000000000000000000000000000000000000000000000000000000000000000000000000, 10993800390300000000000000000000000000000000000000000000000000000000000000000000000000000000, 10991146692100000000000000000000000000000000000000000000000000000000000000000000000000000000, 10988489871900000000000000000000000000000000000000000000000000000000000000000000000000000000, 10985850188200000000000000000000000000000000000000000000000000000000000000000000000000000000, 10983239538500000000000000000000000000000000000000000000000000000000000000000000000000000000, 10980664155200000000000000000000000000000000000000000000000000000000000000000000000000000000, 10978126691000000000000000000000000000000000000000000000000000000000000000000000000000000000, 10975627635900000000000000000000000000000000000000000000000000000000000000000000000000000000, 10973166227000000000000000000000000000000000000000000000000000000000000000000000000000000000, 10970741014600000000000000000000000000000000000000000000000000000000000000000000000000000000, 10968350207800000000000000000000000000000000000000000000000000000000000000000000000000000000, 10965991881600000000000000000000000000000000000000000000000000000000000000000000000000000000, 10963664097500000000000000000000000000000000000000000000000000000000000000000000000000000000, 10961364972100000000000000000000000000000000000000000000000000000000000000000000000000000000, 10959092713300000000000000000000000000000000000000000000000000000000000000000000000000000000, 10956845637500000000000000000000000000000000000000000000000000000000000000000000000000000000, 10954622175000000000000000000000000000000000000000000000000000000000000000000000000000000000, 10952420868800000000000000000000000000000000000000000000000000000000000000000000000000000000, 10950240370400000000000000000000000000000000000000000000000000000000000000000000000000000000, 10948079432400000000000000000000000000000000000000000000000000000000000000000000000000000000, 10945936901700000000000000000000000000000000000000000000000000000000000000000000000000000000, 10943811711800000000000000000000000000000000000000000000000000000000000000000000000000000000, 10941702875000000000000000000000000000000000000000000000000000000000000000000000000000000000, 10939609476200000000000000000000000000000000000000000000000000000000000000000000000000000000, 10937530666000000000000000000000000000000000000000000000000000000000000000000000000000000000, 10935465655000000000000000000000000000000000000000000000000000000000000000000000000000000000, 10933413708000000000000000000000000000000000000000000000000000000000000000000000000000000000, 10931374140100000000000000000000000000000000000000000000000000000000000000000000000000000000, 10929346311200000000000000000000000000000000000000000000000000000000000000000000000000000000, 10927329623100000000000000000000000000000000000000000000000000000000000000000000000000000000, 10925323515200000000000000000000000000000000000000000000000000000000000000000000000000000000, 10923327461800000000000000000000000000000000000000000000000000000000000000000000000000000000, 10921340968900000000000000000000000000000000000000000000000000000000000000000000000000000000, 10919363571900000000000000000000000000000000000000000000000000000000000000000000000000000000, 10917394833200000000000000000000000000000000000000000000000000000000000000000000000000000000]),
  (134756513026000, [11120068522400000000000000000000000000000000000000000000000000000000000000000000000000000000, 11115697809300000000000000000000000000000000000000000000000000000000000000000000000000000000, 11113005860500000000000000000000000000000000000000000000000000000000000000000000000000000000, 11110465597300000000000000000000000000000000000000000000000000000000000000000000000000000000, 11107847770000000000000000000000000000000000000000000000000000000000000000000000000000000000, 11105159176300000000000000000000000000000000000000000000000000000000000000000000000000000000, 11102437175000000000000000000000000000000000000000000000000000000000000000000000000000000000, 11099712581000000000000000000000000000000000000000000000000000000000000000000000000000000000, 11097005624400000000000000000000000000000000000000000000000000000000000000000000000000000000, 11094328160100000000000000000000000000000000000000000000000000000000000000000000000000000000, 11091686381600000000000000000000000000000000000000000000000000000000000000000000000000000000, 11089082910500000000000000000000000000000000000000000000000000000000000000000000000000000000, 11086518211300000000000000000000000000000000000000000000000000000000000000000000000000000000, 11083991499000000000000000000000000000000000000000000000000000000000000000000000000000000000, 11081501303900000000000000000000000000000000000000000000000000000000000000000000000000000000, 11079045815900000000000000000000000000000000000000000000000000000000000000000000000000000000, 11076623091200000000000000000000000000000000000000000000000000000000000000000000000000000000, 11074231172800000000000000000000000000000000000000000000000000000000000000000000000000000000, 11071868159400000000000000000000000000000000000000000000000000000000000000000000000000000000, 11069532241600000000000000000000000000000000000000000000000000000000000000000000000000000000, 11067221719100000000000000000000000000000000000000000000000000000000000000000000000000000000, 11064935006200000000000000000000000000000000000000000000000000000000000000000000000000000000, 11062670631300000000000000000000000000000000000000000000000000000000000000000000000000000000, 11060427231600000000000000000000000000000000000000000000000000000000000000000000000000000000, 11058203546700000000000000000000000000000000000000000000000000000000000000000000000000000000, 11055998411600000000000000000000000000000000000000000000000000000000000000000000000000000000, 11053810748400000000000000000000000000000000000000000000000000000000000000000000000000000000, 11051639559400000000000000000000000000000000000000000000000000000000000000000000000000000000, 11049483919700000000000000000000000000000000000000000000000000000000000000000000000000000000, 11047342971400000000000000000000000000000000000000000000000000000000000000000000000000000000, 11045215916800000000000000000000000000000000000000000000000000000000000000000000000000000000, 11043102013700000000000000000000000000000000000000000000000000000000000000000000000000000000, 11041000570100000000000000000000000000000000000000000000000000000000000000000000000000000000, 11038910939900000000000000000000000000000000000000000000000000000000000000000000000000000000, 11036832519000000000000000000000000000000000000000000000000000000000000000000000000000000000, 11034764741700000000000000000000000000000000000000000000000000000000000000000000000000000000, 11032707077400000000000000000000000000000000000000000000000000000000000000000000000000000000, 11030659027600000000000000000000000000000000000000000000000000000000000000000000000000000000, 11028620123600000000000000000000000000000000000000000000000000000000000000000000000000000000, 11026589924100000000000000000000000000000000000000000000000000000000000000000000000000000000]),
  (136860521042000, [11231006961200000000000000000000000000000000000000000000000000000000000000000000000000000000, 11226538672100000000000000000000000000000000000000000000000000000000000000000000000000000000, 11223769837400000000000000000000000000000000000000000000000000000000000000000000000000000000, 11221156326400000000000000000000000000000000000000000000000000000000000000000000000000000000, 11218466108900000000000000000000000000000000000000000000000000000000000000000000000000000000, 11215705539800000000000000000000000000000000000000000000000000000000000000000000000000000000, 11212911887700000000000000000000000000000000000000000000000000000000000000000000000000000000, 11210115938100000000000000000000000000000000000000000000000000000000000000000000000000000000, 11207337909200000000000000000000000000000000000000000000000000000000000000000000000000000000, 11204589652800000000000000000000000000000000000000000000000000000000000000000000000000000000, 11201877363400000000000000000000000000000000000000000000000000000000000000000000000000000000, 11199203665100000000000000000000000000000000000000000000000000000000000000000000000000000000, 11196569024700000000000000000000000000000000000000000000000000000000000000000000000000000000, 11193972657100000000000000000000000000000000000000000000000000000000000000000000000000000000, 11191413090000000000000000000000000000000000000000000000000000000000000000000000000000000000, 11188888507500000000000000000000000000000000000000000000000000000000000000000000000000000000, 11186396957200000000000000000000000000000000000000000000000000000000000000000000000000000000, 11183936471600000000000000000000000000000000000000000000000000000000000000000000000000000000, 11181505136800000000000000000000000000000000000000000000000000000000000000000000000000000000, 11179101130000000000000000000000000000000000000000000000000000000000000000000000000000000000, 11176722736500000000000000000000000000000000000000000000000000000000000000000000000000000000, 11174368356500000000000000000000000000000000000000000000000000000000000000000000000000000000, 11172036504000000000000000000000000000000000000000000000000000000000000000000000000000000000, 11169725802700000000000000000000000000000000000000000000000000000000000000000000000000000000, 11167434979000000000000000000000000000000000000000000000000000000000000000000000000000000000, 11165162855500000000000000000000000000000000000000000000000000000000000000000000000000000000, 11162908342600000000000000000000000000000000000000000000000000000000000000000000000000000000, 11160670431800000000000000000000000000000000000000000000000000000000000000000000000000000000, 11158448188500000000000000000000000000000000000000000000000000000000000000000000000000000000, 11156240745200000000000000000000000000000000000000000000000000000000000000000000000000000000, 11154047296100000000000000000000000000000000000000000000000000000000000000000000000000000000, 11151867091100000000000000000000000000000000000000000000000000000000000000000000000000000000, 11149699431100000000000000000000000000000000000000000000000000000000000000000000000000000000, 11147543663600000000000000000000000000000000000000000000000000000000000000000000000000000000, 11145399178600000000000000000000000000000000000000000000000000000000000000000000000000000000, 11143265405000000000000000000000000000000000000000000000000000000000000000000000000000000000, 11141141807100000000000000000000000000000000000000000000000000000000000000000000000000000000, 11139027882200000000000000000000000000000000000000000000000000000000000000000000000000000000, 11136923157300000000000000000000000000000000000000000000000000000000000000000000000000000000, 11134827187300000000000000000000000000000000000000000000000000000000000000000000000000000000]),
  (138964529058000, [11340920351300000000000000000000000000000000000000000000000000000000000000000000000000000000, 11336371086700000000000000000000000000000000000000000000000000000000000000000000000000000000, 11333535474800000000000000000000000000000000000000000000000000000000000000000000000000000000, 11330854895600000000000000000000000000000000000000000000000000000000000000000000000000000000, 11328095186900000000000000000000000000000000000000000000000000000000000000000000000000000000, 11325263123400000000000000000000000000000000000000000000000000000000000000000000000000000000, 11322396667200000000000000000000000000000000000000000000000000000000000000000000000000000000, 11319527147700000000000000000000000000000000000000000000000000000000000000000000000000000000, 11316675149100000000000000000000000000000000000000000000000000000000000000000000000000000000, 11313852756300000000000000000000000000000000000000000000000000000000000000000000000000000000, 11311066310500000000000000000000000000000000000000000000000000000000000000000000000000000000, 11308318528000000000000000000000000000000000000000000000000000000000000000000000000000000000, 11305609934000000000000000000000000000000000000000000000000000000000000000000000000000000000, 11302939780900000000000000000000000000000000000000000000000000000000000000000000000000000000, 11300306619500000000000000000000000000000000000000000000000000000000000000000000000000000000, 11297708647500000000000000000000000000000000000000000000000000000000000000000000000000000000, 11295143918700000000000000000000000000000000000000000000000000000000000000000000000000000000, 11292610466800000000000000000000000000000000000000000000000000000000000000000000000000000000, 11290106374900000000000000000000000000000000000000000000000000000000000000000000000000000000, 11287629814400000000000000000000000000000000000000000000000000000000000000000000000000000000, 11285179062900000000000000000000000000000000000000000000000000000000000000000000000000000000, 11282752511500000000000000000000000000000000000000000000000000000000000000000000000000000000, 11280348664300000000000000000000000000000000000000000000000000000000000000000000000000000000, 11277966134500000000000000000000000000000000000000000000000000000000000000000000000000000000, 11275603638300000000000000000000000000000000000000000000000000000000000000000000000000000000, 11273259988100000000000000000000000000000000000000000000000000000000000000000000000000000000, 11270934084500000000000000000000000000000000000000000000000000000000000000000000000000000000, 11268624909900000000000000000000000000000000000000000000000000000000000000000000000000000000, 11266331520600000000000000000000000000000000000000000000000000000000000000000000000000000000, 11264053041100000000000000000000000000000000000000000000000000000000000000000000000000000000, 11261788658000000000000000000000000000000000000000000000000000000000000000000000000000000000, 11259537614100000000000000000000000000000000000000000000000000000000000000000000000000000000, 11257299203900000000000000000000000000000000000000000000000000000000000000000000000000000000, 11255072769000000000000000000000000000000000000000000000000000000000000000000000000000000000, 11252857694000000000000000000000000000000000000000000000000000000000000000000000000000000000, 11250653402700000000000000000000000000000000000000000000000000000000000000000000000000000000, 11248459355100000000000000000000000000000000000000000000000000000000000000000000000000000000, 11246275044200000000000000000000000000000000000000000000000000000000000000000000000000000000, 11244099993500000000000000000000000000000000000000000000000000000000000000000000000000000000, 11241933754500000000000000000000000000000000000000000000000000000000000000000000000000000000]),
  (141068537074000, [11449661238600000000000000000000000000000000000000000000000000000000000000000000000000000000, 11445027003400000000000000000000000000000000000000000000000000000000000000000000000000000000, 11442128601200000000000000000000000000000000000000000000000000000000000000000000000000000000, 11439382802600000000000000000000000000000000000000000000000000000000000000000000000000000000, 11436553190400000000000000000000000000000000000000000000000000000000000000000000000000000000, 11433647775400000000000000000000000000000000000000000000000000000000000000000000000000000000, 11430705815300000000000000000000000000000000000000000000000000000000000000000000000000000000, 11427759538000000000000000000000000000000000000000000000000000000000000000000000000000000000, 11424830088100000000000000000000000000000000000000000000000000000000000000000000000000000000, 11421929885900000000000000000000000000000000000000000000000000000000000000000000000000000000, 11419065470900000000000000000000000000000000000000000000000000000000000000000000000000000000, 11416239678000000000000000000000000000000000000000000000000000000000000000000000000000000000, 11413453105500000000000000000000000000000000000000000000000000000000000000000000000000000000, 11410705052100000000000000000000000000000000000000000000000000000000000000000000000000000000, 11407994099200000000000000000000000000000000000000000000000000000000000000000000000000000000, 11405318465200000000000000000000000000000000000000000000000000000000000000000000000000000000, 11402676217500000000000000000000000000000000000000000000000000000000000000000000000000000000, 11400065397900000000000000000000000000000000000000000000000000000000000000000000000000000000, 11397484094300000000000000000000000000000000000000000000000000000000000000000000000000000000, 11394930479200000000000000000000000000000000000000000000000000000000000000000000000000000000, 11392402829200000000000000000000000000000000000000000000000000000000000000000000000000000000, 11389899532300000000000000000000000000000000000000000000000000000000000000000000000000000000, 11387419088300000000000000000000000000000000000000000000000000000000000000000000000000000000, 11384960105100000000000000000000000000000000000000000000000000000000000000000000000000000000, 11382521293100000000000000000000000000000000000000000000000000000000000000000000000000000000, 11380101458300000000000000000000000000000000000000000000000000000000000000000000000000000000, 11377699495100000000000000000000000000000000000000000000000000000000000000000000000000000000, 11375314379300000000000000000000000000000000000000000000000000000000000000000000000000000000, 11372945161300000000000000000000000000000000000000000000000000000000000000000000000000000000, 11370590959500000000000000000000000000000000000000000000000000000000000000000000000000000000, 11368250954800000000000000000000000000000000000000000000000000000000000000000000000000000000, 11365924384700000000000000000000000000000000000000000000000000000000000000000000000000000000, 11363610539000000000000000000000000000000000000000000000000000000000000000000000000000000000, 11361308754400000000000000000000000000000000000000000000000000000000000000000000000000000000, 11359018411300000000000000000000000000000000000000000000000000000000000000000000000000000000, 11356738929800000000000000000000000000000000000000000000000000000000000000000000000000000000, 11354469766200000000000000000000000000000000000000000000000000000000000000000000000000000000, 11352210410400000000000000000000000000000000000000000000000000000000000000000000000000000000, 11349960382800000000000000000000000000000000000000000000000000000000000000000000000000000000, 11347719232400000000000000000000000000000000000000000000000000000000000000000000000000000000]),
  (143172545090000, [11557074377200000000000000000000000000000000000000000000000000000000000000000000000000000000, 11552357530600000000000000000000000000000000000000000000000000000000000000000000000000000000, 11549384409100000000000000000000000000000000000000000000000000000000000000000000000000000000, 11546561617700000000000000000000000000000000000000000000000000000000000000000000000000000000, 11543652408400000000000000000000000000000000000000000000000000000000000000000000000000000000, 11540665753800000000000000000000000000000000000000000000000000000000000000000000000000000000, 11537641687600000000000000000000000000000000000000000000000000000000000000000000000000000000, 11534612910400000000000000000000000000000000000000000000000000000000000000000000000000000000, 11531600822500000000000000000000000000000000000000000000000000000000000000000000000000000000, 11528617971000000000000000000000000000000000000000000000000000000000000000000000000000000000, 11525670953900000000000000000000000000000000000000000000000000000000000000000000000000000000, 11522762632200000000000000000000000000000000000000000000000000000000000000000000000000000000, 11519893616500000000000000000000000000000000000000000000000000000000000000000000000000000000, 11517063212900000000000000000000000000000000000000000000000000000000000000000000000000000000, 11514270009200000000000000000000000000000000000000000000000000000000000000000000000000000000, 11511512229300000000000000000000000000000000000000000000000000000000000000000000000000000000, 11508787946200000000000000000000000000000000000000000000000000000000000000000000000000000000, 11506095206700000000000000000000000000000000000000000000000000000000000000000000000000000000, 11503432102400000000000000000000000000000000000000000000000000000000000000000000000000000000, 11500796808400000000000000000000000000000000000000000000000000000000000000000000000000000000, 11498187602900000000000000000000000000000000000000000000000000000000000000000000000000000000, 11495602874200000000000000000000000000000000000000000000000000000000000000000000000000000000, 11493041121500000000000000000000000000000000000000000000000000000000000000000000000000000000, 11490500951100000000000000000000000000000000000000000000000000000000000000000000000000000000, 11487981071300000000000000000000000000000000000000000000000000000000000000000000000000000000, 11485480285400000000000000000000000000000000000000000000000000000000000000000000000000000000, 11482997484600000000000000000000000000000000000000000000000000000000000000000000000000000000, 11480531641600000000000000000000000000000000000000000000000000000000000000000000000000000000, 11478081803300000000000000000000000000000000000000000000000000000000000000000000000000000000, 11475647084900000000000000000000000000000000000000000000000000000000000000000000000000000000, 11473226663800000000000000000000000000000000000000000000000000000000000000000000000000000000, 11470819774500000000000000000000000000000000000000000000000000000000000000000000000000000000, 11468425703400000000000000000000000000000000000000000000000000000000000000000000000000000000, 11466043784600000000000000000000000000000000000000000000000000000000000000000000000000000000, 11463673395700000000000000000000000000000000000000000000000000000000000000000000000000000000, 11461313954400000000000000000000000000000000000000000000000000000000000000000000000000000000, 11458964914700000000000000000000000000000000000000000000000000000000000000000000000000000000, 11456625764300000000000000000000000000000000000000000000000000000000000000000000000000000000, 11454296022000000000000000000000000000000000000000000000000000000000000000000000000000000000, 11451975235000000000000000000000000000000000000000000000000000000000000000000000000000000000]),
  (145276553106000, [11662997088500000000000000000000000000000000000000000000000000000000000000000000000000000000, 11658163602500000000000000000000000000000000000000000000000000000000000000000000000000000000, 11655092977100000000000000000000000000000000000000000000000000000000000000000000000000000000, 11652177179100000000000000000000000000000000000000000000000000000000000000000000000000000000, 11649176474400000000000000000000000000000000000000000000000000000000000000000000000000000000, 11646099231700000000000000000000000000000000000000000000000000000000000000000000000000000000, 11642985327500000000000000000000000000000000000000000000000000000000000000000000000000000000, 11639867358100000000000000000000000000000000000000000000000000000000000000000000000000000000, 11636766613100000000000000000000000000000000000000000000000000000000000000000000000000000000, 11633695531600000000000000000000000000000000000000000000000000000000000000000000000000000000, 11630660619100000000000000000000000000000000000000000000000000000000000000000000000000000000, 11627664664300000000000000000000000000000000000000000000000000000000000000000000000000000000, 11624708225000000000000000000000000000000000000000000000000000000000000000000000000000000000, 11621790571100000000000000000000000000000000000000000000000000000000000000000000000000000000, 11618910266200000000000000000000000000000000000000000000000000000000000000000000000000000000, 11616065519200000000000000000000000000000000000000000000000000000000000000000000000000000000, 11613254393900000000000000000000000000000000000000000000000000000000000000000000000000000000, 11610474931900000000000000000000000000000000000000000000000000000000000000000000000000000000, 11607725222100000000000000000000000000000000000000000000000000000000000000000000000000000000, 11605003438400000000000000000000000000000000000000000000000000000000000000000000000000000000, 11602307858300000000000000000000000000000000000000000000000000000000000000000000000000000000, 11599636869800000000000000000000000000000000000000000000000000000000000000000000000000000000, 11596988971500000000000000000000000000000000000000000000000000000000000000000000000000000000, 11594362769400000000000000000000000000000000000000000000000000000000000000000000000000000000, 11591756971100000000000000000000000000000000000000000000000000000000000000000000000000000000, 11589170378800000000000000000000000000000000000000000000000000000000000000000000000000000000, 11586601882900000000000000000000000000000000000000000000000000000000000000000000000000000000, 11584050454700000000000000000000000000000000000000000000000000000000000000000000000000000000, 11581515139800000000000000000000000000000000000000000000000000000000000000000000000000000000, 11578995052000000000000000000000000000000000000000000000000000000000000000000000000000000000, 11576489367400000000000000000000000000000000000000000000000000000000000000000000000000000000, 11573997319000000000000000000000000000000000000000000000000000000000000000000000000000000000, 11571518192000000000000000000000000000000000000000000000000000000000000000000000000000000000, 11569051319200000000000000000000000000000000000000000000000000000000000000000000000000000000, 11566596077000000000000000000000000000000000000000000000000000000000000000000000000000000000, 11564151882000000000000000000000000000000000000000000000000000000000000000000000000000000000, 11561718187400000000000000000000000000000000000000000000000000000000000000000000000000000000, 11559294479900000000000000000000000000000000000000000000000000000000000000000000000000000000, 11556880277700000000000000000000000000000000000000000000000000000000000000000000000000000000, 11554475127200000000000000000000000000000000000000000000000000000000000000000000000000000000]),
  (147380561122000, [11767106543600000000000000000000000000000000000000000000000000000000000000000000000000000000, 11762150736400000000000000000000000000000000000000000000000000000000000000000000000000000000, 11758979151900000000000000000000000000000000000000000000000000000000000000000000000000000000, 11755966917600000000000000000000000000000000000000000000000000000000000000000000000000000000, 11752870812800000000000000000000000000000000000000000000000000000000000000000000000000000000, 11749698614500000000000000000000000000000000000000000000000000000000000000000000000000000000, 11746490153200000000000000000000000000000000000000000000000000000000000000000000000000000000, 11743278031500000000000000000000000000000000000000000000000000000000000000000000000000000000, 11740083521400000000000000000000000000000000000000000000000000000000000000000000000000000000, 11736919026200000000000000000000000000000000000000000000000000000000000000000000000000000000, 11733791010600000000000000000000000000000000000000000000000000000000000000000000000000000000, 11730702224400000000000000000000000000000000000000000000000000000000000000000000000000000000, 11727653191700000000000000000000000000000000000000000000000000000000000000000000000000000000, 11724643154900000000000000000000000000000000000000000000000000000000000000000000000000000000, 11721670655200000000000000000000000000000000000000000000000000000000000000000000000000000000, 11718733884400000000000000000000000000000000000000000000000000000000000000000000000000000000, 11715830893000000000000000000000000000000000000000000000000000000000000000000000000000000000, 11712959712700000000000000000000000000000000000000000000000000000000000000000000000000000000, 11710118424800000000000000000000000000000000000000000000000000000000000000000000000000000000, 11707305197900000000000000000000000000000000000000000000000000000000000000000000000000000000, 11704518305400000000000000000000000000000000000000000000000000000000000000000000000000000000, 11701756132700000000000000000000000000000000000000000000000000000000000000000000000000000000, 11699017176300000000000000000000000000000000000000000000000000000000000000000000000000000000, 11696300040800000000000000000000000000000000000000000000000000000000000000000000000000000000, 11693603432700000000000000000000000000000000000000000000000000000000000000000000000000000000, 11690926153600000000000000000000000000000000000000000000000000000000000000000000000000000000, 11688267093200000000000000000000000000000000000000000000000000000000000000000000000000000000, 11685625222500000000000000000000000000000000000000000000000000000000000000000000000000000000, 11682999586800000000000000000000000000000000000000000000000000000000000000000000000000000000, 11680389299600000000000000000000000000000000000000000000000000000000000000000000000000000000, 11677793536900000000000000000000000000000000000000000000000000000000000000000000000000000000, 11675211531600000000000000000000000000000000000000000000000000000000000000000000000000000000, 11672642568800000000000000000000000000000000000000000000000000000000000000000000000000000000, 11670085981400000000000000000000000000000000000000000000000000000000000000000000000000000000, 11667541145900000000000000000000000000000000000000000000000000000000000000000000000000000000, 11665007478800000000000000000000000000000000000000000000000000000000000000000000000000000000, 11662484433700000000000000000000000000000000000000000000000000000000000000000000000000000000, 11659971497600000000000000000000000000000000000000000000000000000000000000000000000000000000, 11657468188800000000000000000000000000000000000000000000000000000000000000000000000000000000, 11654974054300000000000000000000000000000000000000000000000000000000000000000000000000000000]),
  (149484569138000, [11869050975400000000000000000000000000000000000000000000000000000000000000000000000000000000, 11864003900800000000000000000000000000000000000000000000000000000000000000000000000000000000, 11860746206300000000000000000000000000000000000000000000000000000000000000000000000000000000, 11857644738000000000000000000000000000000000000000000000000000000000000000000000000000000000, 11854456208700000000000000000000000000000000000000000000000000000000000000000000000000000000, 11851189338700000000000000000000000000000000000000000000000000000000000000000000000000000000, 11847884759700000000000000000000000000000000000000000000000000000000000000000000000000000000, 11844575646400000000000000000000000000000000000000000000000000000000000000000000000000000000, 11841283664200000000000000000000000000000000000000000000000000000000000000000000000000000000, 11838021479900000000000000000000000000000000000000000000000000000000000000000000000000000000, 11834795728600000000000000000000000000000000000000000000000000000000000000000000000000000000, 11831609265700000000000000000000000000000000000000000000000000000000000000000000000000000000, 11828462677400000000000000000000000000000000000000000000000000000000000000000000000000000000, 11825355239400000000000000000000000000000000000000000000000000000000000000000000000000000000, 11822285508900000000000000000000000000000000000000000000000000000000000000000000000000000000, 11819251682800000000000000000000000000000000000000000000000000000000000000000000000000000000, 11816251811200000000000000000000000000000000000000000000000000000000000000000000000000000000, 11813283922100000000000000000000000000000000000000000000000000000000000000000000000000000000, 11810346092600000000000000000000000000000000000000000000000000000000000000000000000000000000, 11807436486400000000000000000000000000000000000000000000000000000000000000000000000000000000, 11804553372700000000000000000000000000000000000000000000000000000000000000000000000000000000, 11801695133300000000000000000000000000000000000000000000000000000000000000000000000000000000, 11798860262000000000000000000000000000000000000000000000000000000000000000000000000000000000, 11796047361200000000000000000000000000000000000000000000000000000000000000000000000000000000, 11793255136000000000000000000000000000000000000000000000000000000000000000000000000000000000, 11790482387000000000000000000000000000000000000000000000000000000000000000000000000000000000, 11787728003500000000000000000000000000000000000000000000000000000000000000000000000000000000, 11784990956300000000000000000000000000000000000000000000000000000000000000000000000000000000, 11782270291100000000000000000000000000000000000000000000000000000000000000000000000000000000, 11779565121700000000000000000000000000000000000000000000000000000000000000000000000000000000, 11776874624700000000000000000000000000000000000000000000000000000000000000000000000000000000, 11774198033900000000000000000000000000000000000000000000000000000000000000000000000000000000, 11771534635100000000000000000000000000000000000000000000000000000000000000000000000000000000, 11768883762200000000000000000000000000000000000000000000000000000000000000000000000000000000, 11766244792700000000000000000000000000000000000000000000000000000000000000000000000000000000, 11763617144300000000000000000000000000000000000000000000000000000000000000000000000000000000, 11761000271600000000000000000000000000000000000000000000000000000000000000000000000000000000, 11758393662700000000000000000000000000000000000000000000000000000000000000000000000000000000, 11755796837300000000000000000000000000000000000000000000000000000000000000000000000000000000, 11753209343300000000000000000000000000000000000000000000000000000000000000000000000000000000]),
  (151588577154000, [11968587614300000000000000000000000000000000000000000000000000000000000000000000000000000000, 11963452368300000000000000000000000000000000000000000000000000000000000000000000000000000000, 11960112633100000000000000000000000000000000000000000000000000000000000000000000000000000000, 11956924134100000000000000000000000000000000000000000000000000000000000000000000000000000000, 11953643742300000000000000000000000000000000000000000000000000000000000000000000000000000000, 11950281423800000000000000000000000000000000000000000000000000000000000000000000000000000000, 11946878858600000000000000000000000000000000000000000000000000000000000000000000000000000000, 11943470025200000000000000000000000000000000000000000000000000000000000000000000000000000000, 11940077192300000000000000000000000000000000000000000000000000000000000000000000000000000000, 11936713467000000000000000000000000000000000000000000000000000000000000000000000000000000000, 11933385794400000000000000000000000000000000000000000000000000000000000000000000000000000000, 11930097241700000000000000000000000000000000000000000000000000000000000000000000000000000000, 11926848535300000000000000000000000000000000000000000000000000000000000000000000000000000000, 11923639040900000000000000000000000000000000000000000000000000000000000000000000000000000000, 11920467371500000000000000000000000000000000000000000000000000000000000000000000000000000000, 11917331757600000000000000000000000000000000000000000000000000000000000000000000000000000000, 11914230267900000000000000000000000000000000000000000000000000000000000000000000000000000000, 11911160940400000000000000000000000000000000000000000000000000000000000000000000000000000000, 11908121856100000000000000000000000000000000000000000000000000000000000000000000000000000000, 11905111180000000000000000000000000000000000000000000000000000000000000000000000000000000000, 11902127181100000000000000000000000000000000000000000000000000000000000000000000000000000000, 11899168239800000000000000000000000000000000000000000000000000000000000000000000000000000000, 11896232849200000000000000000000000000000000000000000000000000000000000000000000000000000000, 11893319610500000000000000000000000000000000000000000000000000000000000000000000000000000000, 11890427228400000000000000000000000000000000000000000000000000000000000000000000000000000000, 11887554503300000000000000000000000000000000000000000000000000000000000000000000000000000000, 11884700324800000000000000000000000000000000000000000000000000000000000000000000000000000000, 11881863664500000000000000000000000000000000000000000000000000000000000000000000000000000000, 11879043568600000000000000000000000000000000000000000000000000000000000000000000000000000000, 11876239152500000000000000000000000000000000000000000000000000000000000000000000000000000000, 11873449593900000000000000000000000000000000000000000000000000000000000000000000000000000000, 11870674128300000000000000000000000000000000000000000000000000000000000000000000000000000000, 11867912043100000000000000000000000000000000000000000000000000000000000000000000000000000000, 11865162674000000000000000000000000000000000000000000000000000000000000000000000000000000000, 11862425400300000000000000000000000000000000000000000000000000000000000000000000000000000000, 11859699641500000000000000000000000000000000000000000000000000000000000000000000000000000000, 11856984853900000000000000000000000000000000000000000000000000000000000000000000000000000000, 11854280527900000000000000000000000000000000000000000000000000000000000000000000000000000000, 11851586184700000000000000000000000000000000000000000000000000000000000000000000000000000000, 11848901374300000000000000000000000000000000000000000000000000000000000000000000000000000000]),
  (153692585170000, [12065461738800000000000000000000000000000000000000000000000000000000000000000000000000000000, 12060227975100000000000000000000000000000000000000000000000000000000000000000000000000000000, 12056795275400000000000000000000000000000000000000000000000000000000000000000000000000000000, 12053511490500000000000000000000000000000000000000000000000000000000000000000000000000000000, 12050132844500000000000000000000000000000000000000000000000000000000000000000000000000000000, 12046669792300000000000000000000000000000000000000000000000000000000000000000000000000000000, 12043164602700000000000000000000000000000000000000000000000000000000000000000000000000000000, 12039651768500000000000000000000000000000000000000000000000000000000000000000000000000000000, 12036153975600000000000000000000000000000000000000000000000000000000000000000000000000000000, 12032684656700000000000000000000000000000000000000000000000000000000000000000000000000000000, 12029251004200000000000000000000000000000000000000000000000000000000000000000000000000000000, 12025856268000000000000000000000000000000000000000000000000000000000000000000000000000000000, 12022501306900000000000000000000000000000000000000000000000000000000000000000000000000000000, 12019185580300000000000000000000000000000000000000000000000000000000000000000000000000000000, 12015907766700000000000000000000000000000000000000000000000000000000000000000000000000000000, 12012666140600000000000000000000000000000000000000000000000000000000000000000000000000000000, 12009458800700000000000000000000000000000000000000000000000000000000000000000000000000000000, 12006283804500000000000000000000000000000000000000000000000000000000000000000000000000000000, 12003139245900000000000000000000000000000000000000000000000000000000000000000000000000000000, 12000023298000000000000000000000000000000000000000000000000000000000000000000000000000000000, 11996934235100000000000000000000000000000000000000000000000000000000000000000000000000000000, 11993870441500000000000000000000000000000000000000000000000000000000000000000000000000000000, 11990830412700000000000000000000000000000000000000000000000000000000000000000000000000000000, 11987812752400000000000000000000000000000000000000000000000000000000000000000000000000000000, 11984816167100000000000000000000000000000000000000000000000000000000000000000000000000000000, 11981839459300000000000000000000000000000000000000000000000000000000000000000000000000000000, 11978881520600000000000000000000000000000000000000000000000000000000000000000000000000000000, 11975941324700000000000000000000000000000000000000000000000000000000000000000000000000000000, 11973017920200000000000000000000000000000000000000000000000000000000000000000000000000000000, 11970110424800000000000000000000000000000000000000000000000000000000000000000000000000000000, 11967218018900000000000000000000000000000000000000000000000000000000000000000000000000000000, 11964339940100000000000000000000000000000000000000000000000000000000000000000000000000000000, 11961475478700000000000000000000000000000000000000000000000000000000000000000000000000000000, 11958623972700000000000000000000000000000000000000000000000000000000000000000000000000000000, 11955784804200000000000000000000000000000000000000000000000000000000000000000000000000000000, 11952957395100000000000000000000000000000000000000000000000000000000000000000000000000000000, 11950141204300000000000000000000000000000000000000000000000000000000000000000000000000000000, 11947335724600000000000000000000000000000000000000000000000000000000000000000000000000000000, 11944540479600000000000000000000000000000000000000000000000000000000000000000000000000000000, 11941755021800000000000000000000000000000000000000000000000000000000000000000000000000000000]),
  (155796593186000, [12159375248400000000000000000000000000000000000000000000000000000000000000000000000000000000, 12154016952400000000000000000000000000000000000000000000000000000000000000000000000000000000, 12150475281200000000000000000000000000000000000000000000000000000000000000000000000000000000, 12147084557900000000000000000000000000000000000000000000000000000000000000000000000000000000, 12143598443200000000000000000000000000000000000000000000000000000000000000000000000000000000, 12140027186900000000000000000000000000000000000000000000000000000000000000000000000000000000, 12136413216700000000000000000000000000000000000000000000000000000000000000000000000000000000, 12132791177900000000000000000000000000000000000000000000000000000000000000000000000000000000, 12129183873000000000000000000000000000000000000000000000000000000000000000000000000000000000, 12125604831100000000000000000000000000000000000000000000000000000000000000000000000000000000, 12122061329500000000000000000000000000000000000000000000000000000000000000000000000000000000, 12118556694100000000000000000000000000000000000000000000000000000000000000000000000000000000, 12115091848500000000000000000000000000000000000000000000000000000000000000000000000000000000, 12111666306800000000000000000000000000000000000000000000000000000000000000000000000000000000, 12108278791200000000000000000000000000000000000000000000000000000000000000000000000000000000, 12104927611300000000000000000000000000000000000000000000000000000000000000000000000000000000, 12101610892700000000000000000000000000000000000000000000000000000000000000000000000000000000, 12098326713800000000000000000000000000000000000000000000000000000000000000000000000000000000, 12095073184600000000000000000000000000000000000000000000000000000000000000000000000000000000, 12091848490900000000000000000000000000000000000000000000000000000000000000000000000000000000, 12088650917000000000000000000000000000000000000000000000000000000000000000000000000000000000, 12085478855300000000000000000000000000000000000000000000000000000000000000000000000000000000, 12082330808200000000000000000000000000000000000000000000000000000000000000000000000000000000, 12079205385300000000000000000000000000000000000000000000000000000000000000000000000000000000, 12076101298500000000000000000000000000000000000000000000000000000000000000000000000000000000, 12073017355100000000000000000000000000000000000000000000000000000000000000000000000000000000, 12069952451300000000000000000000000000000000000000000000000000000000000000000000000000000000, 12066905565000000000000000000000000000000000000000000000000000000000000000000000000000000000, 12063875749000000000000000000000000000000000000000000000000000000000000000000000000000000000, 12060862125000000000000000000000000000000000000000000000000000000000000000000000000000000000, 12057863876900000000000000000000000000000000000000000000000000000000000000000000000000000000, 12054880246300000000000000000000000000000000000000000000000000000000000000000000000000000000, 12051910526900000000000000000000000000000000000000000000000000000000000000000000000000000000, 12048954060200000000000000000000000000000000000000000000000000000000000000000000000000000000, 12046010231500000000000000000000000000000000000000000000000000000000000000000000000000000000, 12043078465900000000000000000000000000000000000000000000000000000000000000000000000000000000, 12040158225400000000000000000000000000000000000000000000000000000000000000000000000000000000, 12037249005700000000000000000000000000000000000000000000000000000000000000000000000000000000, 12034350333200000000000000000000000000000000000000000000000000000000000000000000000000000000, 12031461763000000000000000000000000000000000000000000000000000000000000000000000000000000000])]
noncomputable def ttSpec3 : List (Nat × List Nat) := [
  (157900601202000, [12249921250800000000000000000000000000000000000000000000000000000000000000000000000000000000, 12244437329400000000000000000000000000000000000000000000000000000000000000000000000000000000, 12240784129400000000000000000000000000000000000000000000000000000000000000000000000000000000, 12237282301800000000000000000000000000000000000000000000000000000000000000000000000000000000, 12233683997400000000000000000000000000000000000000000000000000000000000000000000000000000000, 12229999863200000000000000000000000000000000000000000000000000000000000000000000000000000000, 12226272737400000000000000000000000000000000000000000000000000000000000000000000000000000000, 12222537485600000000000000000000000000000000000000000000000000000000000000000000000000000000, 12218817007500000000000000000000000000000000000000000000000000000000000000000000000000000000, 12215124873200000000000000000000000000000000000000000000000000000000000000000000000000000000, 12211468382400000000000000000000000000000000000000000000000000000000000000000000000000000000, 12207850878600000000000000000000000000000000000000000000000000000000000000000000000000000000, 12204273304000000000000000000000000000000000000000000000000000000000000000000000000000000000, 12200735192100000000000000000000000000000000000000000000000000000000000000000000000000000000, 12197235285000000000000000000000000000000000000000000000000000000000000000000000000000000000, 12193771911300000000000000000000000000000000000000000000000000000000000000000000000000000000, 12190343214700000000000000000000000000000000000000000000000000000000000000000000000000000000, 12186947290200000000000000000000000000000000000000000000000000000000000000000000000000000000, 12183582262800000000000000000000000000000000000000000000000000000000000000000000000000000000, 12180246332000000000000000000000000000000000000000000000000000000000000000000000000000000000, 12176937794100000000000000000000000000000000000000000000000000000000000000000000000000000000, 12173655052800000000000000000000000000000000000000000000000000000000000000000000000000000000, 12170396620300000000000000000000000000000000000000000000000000000000000000000000000000000000, 12167161115200000000000000000000000000000000000000000000000000000000000000000000000000000000, 12163947257600000000000000000000000000000000000000000000000000000000000000000000000000000000, 12160753862400000000000000000000000000000000000000000000000000000000000000000000000000000000, 12157579832700000000000000000000000000000000000000000000000000000000000000000000000000000000, 12154424152700000000000000000000000000000000000000000000000000000000000000000000000000000000, 12151285881300000000000000000000000000000000000000000000000000000000000000000000000000000000, 12148164145300000000000000000000000000000000000000000000000000000000000000000000000000000000, 12145058134200000000000000000000000000000000000000000000000000000000000000000000000000000000, 12141967093900000000000000000000000000000000000000000000000000000000000000000000000000000000, 12138890322900000000000000000000000000000000000000000000000000000000000000000000000000000000, 12135827166600000000000000000000000000000000000000000000000000000000000000000000000000000000, 12132777014200000000000000000000000000000000000000000000000000000000000000000000000000000000, 12129739294600000000000000000000000000000000000000000000000000000000000000000000000000000000, 12126713473100000000000000000000000000000000000000000000000000000000000000000000000000000000, 12123699048600000000000000000000000000000000000000000000000000000000000000000000000000000000, 12120695550400000000000000000000000000000000000000000000000000000000000000000000000000000000, 12117702536500000000000000000000000000000000000000000000000000000000000000000000000000000000]),
  (160004609218000, [12336668691000000000000000000000000000000000000000000000000000000000000000000000000000000000, 12331080264300000000000000000000000000000000000000000000000000000000000000000000000000000000, 12327325297800000000000000000000000000000000000000000000000000000000000000000000000000000000, 12323717204500000000000000000000000000000000000000000000000000000000000000000000000000000000, 12320008725100000000000000000000000000000000000000000000000000000000000000000000000000000000, 12316211969100000000000000000000000000000000000000000000000000000000000000000000000000000000, 12312370888300000000000000000000000000000000000000000000000000000000000000000000000000000000, 12308521047500000000000000000000000000000000000000000000000000000000000000000000000000000000, 12304685750100000000000000000000000000000000000000000000000000000000000000000000000000000000, 12300878788000000000000000000000000000000000000000000000000000000000000000000000000000000000, 12297107578200000000000000000000000000000000000000000000000000000000000000000000000000000000, 12293375526400000000000000000000000000000000000000000000000000000000000000000000000000000000, 12289683609200000000000000000000000000000000000000000000000000000000000000000000000000000000, 12286031381800000000000000000000000000000000000000000000000000000000000000000000000000000000, 12282417602300000000000000000000000000000000000000000000000000000000000000000000000000000000, 12278840613900000000000000000000000000000000000000000000000000000000000000000000000000000000, 12275298574300000000000000000000000000000000000000000000000000000000000000000000000000000000, 12271789592200000000000000000000000000000000000000000000000000000000000000000000000000000000, 12268311806500000000000000000000000000000000000000000000000000000000000000000000000000000000, 12264863430300000000000000000000000000000000000000000000000000000000000000000000000000000000, 12261442773000000000000000000000000000000000000000000000000000000000000000000000000000000000, 12258048250600000000000000000000000000000000000000000000000000000000000000000000000000000000, 12254678387200000000000000000000000000000000000000000000000000000000000000000000000000000000, 12251331812300000000000000000000000000000000000000000000000000000000000000000000000000000000, 12248007256100000000000000000000000000000000000000000000000000000000000000000000000000000000, 12244703542800000000000000000000000000000000000000000000000000000000000000000000000000000000, 12241419584100000000000000000000000000000000000000000000000000000000000000000000000000000000, 12238154372100000000000000000000000000000000000000000000000000000000000000000000000000000000, 12234906972800000000000000000000000000000000000000000000000000000000000000000000000000000000, 12231676519600000000000000000000000000000000000000000000000000000000000000000000000000000000, 12228462207800000000000000000000000000000000000000000000000000000000000000000000000000000000, 12225263289100000000000000000000000000000000000000000000000000000000000000000000000000000000, 12222079066600000000000000000000000000000000000000000000000000000000000000000000000000000000, 12218908890600000000000000000000000000000000000000000000000000000000000000000000000000000000, 12215752154400000000000000000000000000000000000000000000000000000000000000000000000000000000, 12212608290500000000000000000000000000000000000000000000000000000000000000000000000000000000, 12209476767900000000000000000000000000000000000000000000000000000000000000000000000000000000, 12206357088400000000000000000000000000000000000000000000000000000000000000000000000000000000, 12203248784500000000000000000000000000000000000000000000000000000000000000000000000000000000, 12200151416400000000000000000000000000000000000000000000000000000000000000000000000000000000]),
  (162108617234000, [12419245558900000000000000000000000000000000000000000000000000000000000000000000000000000000, 12413554647500000000000000000000000000000000000000000000000000000000000000000000000000000000, 12409704082700000000000000000000000000000000000000000000000000000000000000000000000000000000, 12405995409400000000000000000000000000000000000000000000000000000000000000000000000000000000, 12402181034900000000000000000000000000000000000000000000000000000000000000000000000000000000, 12398274588700000000000000000000000000000000000000000000000000000000000000000000000000000000, 12394321432600000000000000000000000000000000000000000000000000000000000000000000000000000000, 12390358143900000000000000000000000000000000000000000000000000000000000000000000000000000000, 12386408688300000000000000000000000000000000000000000000000000000000000000000000000000000000, 12382487269500000000000000000000000000000000000000000000000000000000000000000000000000000000, 12378601553200000000000000000000000000000000000000000000000000000000000000000000000000000000, 12374755092600000000000000000000000000000000000000000000000000000000000000000000000000000000, 12370948952500000000000000000000000000000000000000000000000000000000000000000000000000000000, 12367182742500000000000000000000000000000000000000000000000000000000000000000000000000000000, 12363455256700000000000000000000000000000000000000000000000000000000000000000000000000000000, 12359764864100000000000000000000000000000000000000000000000000000000000000000000000000000000, 12356109743200000000000000000000000000000000000000000000000000000000000000000000000000000000, 12352488021000000000000000000000000000000000000000000000000000000000000000000000000000000000, 12348897852900000000000000000000000000000000000000000000000000000000000000000000000000000000, 12345337467600000000000000000000000000000000000000000000000000000000000000000000000000000000, 12341805189300000000000000000000000000000000000000000000000000000000000000000000000000000000, 12338299447900000000000000000000000000000000000000000000000000000000000000000000000000000000, 12334818780300000000000000000000000000000000000000000000000000000000000000000000000000000000, 12331361828300000000000000000000000000000000000000000000000000000000000000000000000000000000, 12327927333100000000000000000000000000000000000000000000000000000000000000000000000000000000, 12324514129400000000000000000000000000000000000000000000000000000000000000000000000000000000, 12321121138000000000000000000000000000000000000000000000000000000000000000000000000000000000, 12317747359600000000000000000000000000000000000000000000000000000000000000000000000000000000, 12314391867800000000000000000000000000000000000000000000000000000000000000000000000000000000, 12311053803100000000000000000000000000000000000000000000000000000000000000000000000000000000, 12307732367100000000000000000000000000000000000000000000000000000000000000000000000000000000, 12304426817000000000000000000000000000000000000000000000000000000000000000000000000000000000, 12301136461000000000000000000000000000000000000000000000000000000000000000000000000000000000, 12297860653800000000000000000000000000000000000000000000000000000000000000000000000000000000, 12294598792800000000000000000000000000000000000000000000000000000000000000000000000000000000, 12291350314100000000000000000000000000000000000000000000000000000000000000000000000000000000, 12288114689700000000000000000000000000000000000000000000000000000000000000000000000000000000, 12284891424300000000000000000000000000000000000000000000000000000000000000000000000000000000, 12281680052600000000000000000000000000000000000000000000000000000000000000000000000000000000, 12278480137100000000000000000000000000000000000000000000000000000000000000000000000000000000]),
  (164212625251000, [12497265654000000000000000000000000000000000000000000000000000000000000000000000000000000000, 12491476410700000000000000000000000000000000000000000000000000000000000000000000000000000000, 12487530657800000000000000000000000000000000000000000000000000000000000000000000000000000000, 12483722919400000000000000000000000000000000000000000000000000000000000000000000000000000000, 12479805277400000000000000000000000000000000000000000000000000000000000000000000000000000000, 12475792295300000000000000000000000000000000000000000000000000000000000000000000000000000000, 12471730309600000000000000000000000000000000000000000000000000000000000000000000000000000000, 12467656683700000000000000000000000000000000000000000000000000000000000000000000000000000000, 12463595967700000000000000000000000000000000000000000000000000000000000000000000000000000000, 12459562781200000000000000000000000000000000000000000000000000000000000000000000000000000000, 12455565078000000000000000000000000000000000000000000000000000000000000000000000000000000000, 12451606608400000000000000000000000000000000000000000000000000000000000000000000000000000000, 12447688572100000000000000000000000000000000000000000000000000000000000000000000000000000000, 12443810671400000000000000000000000000000000000000000000000000000000000000000000000000000000, 12439971766000000000000000000000000000000000000000000000000000000000000000000000000000000000, 12436170273300000000000000000000000000000000000000000000000000000000000000000000000000000000, 12432404408600000000000000000000000000000000000000000000000000000000000000000000000000000000, 12428672328200000000000000000000000000000000000000000000000000000000000000000000000000000000, 12424972212100000000000000000000000000000000000000000000000000000000000000000000000000000000, 12421302310100000000000000000000000000000000000000000000000000000000000000000000000000000000, 12417660964900000000000000000000000000000000000000000000000000000000000000000000000000000000, 12414046622700000000000000000000000000000000000000000000000000000000000000000000000000000000, 12410457835200000000000000000000000000000000000000000000000000000000000000000000000000000000, 12406893257400000000000000000000000000000000000000000000000000000000000000000000000000000000, 12403351642500000000000000000000000000000000000000000000000000000000000000000000000000000000, 12399831835600000000000000000000000000000000000000000000000000000000000000000000000000000000, 12396332767400000000000000000000000000000000000000000000000000000000000000000000000000000000, 12392853446900000000000000000000000000000000000000000000000000000000000000000000000000000000, 12389392955500000000000000000000000000000000000000000000000000000000000000000000000000000000, 12385950440400000000000000000000000000000000000000000000000000000000000000000000000000000000, 12382525109000000000000000000000000000000000000000000000000000000000000000000000000000000000, 12379116223900000000000000000000000000000000000000000000000000000000000000000000000000000000, 12375723097800000000000000000000000000000000000000000000000000000000000000000000000000000000, 12372345089500000000000000000000000000000000000000000000000000000000000000000000000000000000, 12368981599600000000000000000000000000000000000000000000000000000000000000000000000000000000, 12365632067200000000000000000000000000000000000000000000000000000000000000000000000000000000, 12362295966800000000000000000000000000000000000000000000000000000000000000000000000000000000, 12358972804900000000000000000000000000000000000000000000000000000000000000000000000000000000, 12355662118000000000000000000000000000000000000000000000000000000000000000000000000000000000, 12352363469700000000000000000000000000000000000000000000000000000000000000000000000000000000]),
  (166316633267000, [12570344082500000000000000000000000000000000000000000000000000000000000000000000000000000000, 12564448453400000000000000000000000000000000000000000000000000000000000000000000000000000000, 12560405847700000000000000000000000000000000000000000000000000000000000000000000000000000000, 12556500188700000000000000000000000000000000000000000000000000000000000000000000000000000000, 12552482297900000000000000000000000000000000000000000000000000000000000000000000000000000000, 12548367038100000000000000000000000000000000000000000000000000000000000000000000000000000000, 12544201172700000000000000000000000000000000000000000000000000000000000000000000000000000000, 12540022454000000000000000000000000000000000000000000000000000000000000000000000000000000000, 12535855777100000000000000000000000000000000000000000000000000000000000000000000000000000000, 12531716059600000000000000000000000000000000000000000000000000000000000000000000000000000000, 12527611502600000000000000000000000000000000000000000000000000000000000000000000000000000000, 12523546054900000000000000000000000000000000000000000000000000000000000000000000000000000000, 12519521070800000000000000000000000000000000000000000000000000000000000000000000000000000000, 12515536372400000000000000000000000000000000000000000000000000000000000000000000000000000000, 12511590911100000000000000000000000000000000000000000000000000000000000000000000000000000000, 12507683175200000000000000000000000000000000000000000000000000000000000000000000000000000000, 12503811435400000000000000000000000000000000000000000000000000000000000000000000000000000000, 12499973891800000000000000000000000000000000000000000000000000000000000000000000000000000000, 12496168759900000000000000000000000000000000000000000000000000000000000000000000000000000000, 12492394318100000000000000000000000000000000000000000000000000000000000000000000000000000000, 12488648933400000000000000000000000000000000000000000000000000000000000000000000000000000000, 12484931072100000000000000000000000000000000000000000000000000000000000000000000000000000000, 12481239303200000000000000000000000000000000000000000000000000000000000000000000000000000000, 12477572296600000000000000000000000000000000000000000000000000000000000000000000000000000000, 12473928818100000000000000000000000000000000000000000000000000000000000000000000000000000000, 12470307724000000000000000000000000000000000000000000000000000000000000000000000000000000000, 12466707954500000000000000000000000000000000000000000000000000000000000000000000000000000000, 12463128527000000000000000000000000000000000000000000000000000000000000000000000000000000000, 12459568530000000000000000000000000000000000000000000000000000000000000000000000000000000000, 12456027116900000000000000000000000000000000000000000000000000000000000000000000000000000000, 12452503500400000000000000000000000000000000000000000000000000000000000000000000000000000000, 12448996947700000000000000000000000000000000000000000000000000000000000000000000000000000000, 12445506775100000000000000000000000000000000000000000000000000000000000000000000000000000000, 12442032344500000000000000000000000000000000000000000000000000000000000000000000000000000000, 12438573059100000000000000000000000000000000000000000000000000000000000000000000000000000000, 12435128359900000000000000000000000000000000000000000000000000000000000000000000000000000000, 12431697722700000000000000000000000000000000000000000000000000000000000000000000000000000000, 12428280655200000000000000000000000000000000000000000000000000000000000000000000000000000000, 12424876694300000000000000000000000000000000000000000000000000000000000000000000000000000000, 12421485403900000000000000000000000000000000000000000000000000000000000000000000000000000000]),
  (168420641283000, [12638044800800000000000000000000000000000000000000000000000000000000000000000000000000000000, 12632051739500000000000000000000000000000000000000000000000000000000000000000000000000000000, 12627921053200000000000000000000000000000000000000000000000000000000000000000000000000000000, 12623925134000000000000000000000000000000000000000000000000000000000000000000000000000000000, 12619814365600000000000000000000000000000000000000000000000000000000000000000000000000000000, 12615604382900000000000000000000000000000000000000000000000000000000000000000000000000000000, 12611342462000000000000000000000000000000000000000000000000000000000000000000000000000000000, 12607066665200000000000000000000000000000000000000000000000000000000000000000000000000000000, 12602802126600000000000000000000000000000000000000000000000000000000000000000000000000000000, 12598563980500000000000000000000000000000000000000000000000000000000000000000000000000000000, 12594360629200000000000000000000000000000000000000000000000000000000000000000000000000000000, 12590196201200000000000000000000000000000000000000000000000000000000000000000000000000000000, 12586072205900000000000000000000000000000000000000000000000000000000000000000000000000000000, 12581988595100000000000000000000000000000000000000000000000000000000000000000000000000000000, 12577944426900000000000000000000000000000000000000000000000000000000000000000000000000000000, 12573938275800000000000000000000000000000000000000000000000000000000000000000000000000000000, 12569968482400000000000000000000000000000000000000000000000000000000000000000000000000000000, 12566033303100000000000000000000000000000000000000000000000000000000000000000000000000000000, 12562130998600000000000000000000000000000000000000000000000000000000000000000000000000000000, 12558259884200000000000000000000000000000000000000000000000000000000000000000000000000000000, 12554418356600000000000000000000000000000000000000000000000000000000000000000000000000000000, 12550604906900000000000000000000000000000000000000000000000000000000000000000000000000000000, 12546818124300000000000000000000000000000000000000000000000000000000000000000000000000000000, 12543056695200000000000000000000000000000000000000000000000000000000000000000000000000000000, 12539319399500000000000000000000000000000000000000000000000000000000000000000000000000000000, 12535605105300000000000000000000000000000000000000000000000000000000000000000000000000000000, 12531912762300000000000000000000000000000000000000000000000000000000000000000000000000000000, 12528241396100000000000000000000000000000000000000000000000000000000000000000000000000000000, 12524590102000000000000000000000000000000000000000000000000000000000000000000000000000000000, 12520958038900000000000000000000000000000000000000000000000000000000000000000000000000000000, 12517344424100000000000000000000000000000000000000000000000000000000000000000000000000000000, 12513748528300000000000000000000000000000000000000000000000000000000000000000000000000000000, 12510169670800000000000000000000000000000000000000000000000000000000000000000000000000000000, 12506607215500000000000000000000000000000000000000000000000000000000000000000000000000000000, 12503060567000000000000000000000000000000000000000000000000000000000000000000000000000000000, 12499529167300000000000000000000000000000000000000000000000000000000000000000000000000000000, 12496012492500000000000000000000000000000000000000000000000000000000000000000000000000000000, 12492510050000000000000000000000000000000000000000000000000000000000000000000000000000000000, 12489021376300000000000000000000000000000000000000000000000000000000000000000000000000000000, 12485546034100000000000000000000000000000000000000000000000000000000000000000000000000000000]),
  (170524649299000, [12699941818100000000000000000000000000000000000000000000000000000000000000000000000000000000, 12693882912300000000000000000000000000000000000000000000000000000000000000000000000000000000, 12689681125700000000000000000000000000000000000000000000000000000000000000000000000000000000, 12685608069200000000000000000000000000000000000000000000000000000000000000000000000000000000, 12681416307600000000000000000000000000000000000000000000000000000000000000000000000000000000, 12677123056200000000000000000000000000000000000000000000000000000000000000000000000000000000, 12672776415100000000000000000000000000000000000000000000000000000000000000000000000000000000, 12668414870900000000000000000000000000000000000000000000000000000000000000000000000000000000, 12664063820400000000000000000000000000000000000000000000000000000000000000000000000000000000, 12659738602000000000000000000000000000000000000000000000000000000000000000000000000000000000, 12655447798000000000000000000000000000000000000000000000000000000000000000000000000000000000, 12651195699900000000000000000000000000000000000000000000000000000000000000000000000000000000, 12646983963400000000000000000000000000000000000000000000000000000000000000000000000000000000, 12642812668300000000000000000000000000000000000000000000000000000000000000000000000000000000, 12638680982900000000000000000000000000000000000000000000000000000000000000000000000000000000, 12634587574500000000000000000000000000000000000000000000000000000000000000000000000000000000, 12630530860800000000000000000000000000000000000000000000000000000000000000000000000000000000, 12626509162000000000000000000000000000000000000000000000000000000000000000000000000000000000, 12622520790800000000000000000000000000000000000000000000000000000000000000000000000000000000, 12618564105200000000000000000000000000000000000000000000000000000000000000000000000000000000, 12614637536500000000000000000000000000000000000000000000000000000000000000000000000000000000, 12610739604100000000000000000000000000000000000000000000000000000000000000000000000000000000, 12606868920100000000000000000000000000000000000000000000000000000000000000000000000000000000, 12603024189700000000000000000000000000000000000000000000000000000000000000000000000000000000, 12599204208200000000000000000000000000000000000000000000000000000000000000000000000000000000, 12595407855800000000000000000000000000000000000000000000000000000000000000000000000000000000, 12591634092600000000000000000000000000000000000000000000000000000000000000000000000000000000, 12587881952400000000000000000000000000000000000000000000000000000000000000000000000000000000, 12584150536700000000000000000000000000000000000000000000000000000000000000000000000000000000, 12580439009900000000000000000000000000000000000000000000000000000000000000000000000000000000, 12576746593100000000000000000000000000000000000000000000000000000000000000000000000000000000, 12573072559800000000000000000000000000000000000000000000000000000000000000000000000000000000, 12569416231700000000000000000000000000000000000000000000000000000000000000000000000000000000, 12565776973600000000000000000000000000000000000000000000000000000000000000000000000000000000, 12562154190900000000000000000000000000000000000000000000000000000000000000000000000000000000, 12558547325300000000000000000000000000000000000000000000000000000000000000000000000000000000, 12554955852400000000000000000000000000000000000000000000000000000000000000000000000000000000, 12551379278500000000000000000000000000000000000000000000000000000000000000000000000000000000, 12547817138300000000000000000000000000000000000000000000000000000000000000000000000000000000, 12544268992600000000000000000000000000000000000000000000000000000000000000000000000000000000]),
  (172628657315000, [12755691145500000000000000000000000000000000000000000000000000000000000000000000000000000000, 12749576447700000000000000000000000000000000000000000000000000000000000000000000000000000000, 12745317737100000000000000000000000000000000000000000000000000000000000000000000000000000000, 12741183005600000000000000000000000000000000000000000000000000000000000000000000000000000000, 12736925929000000000000000000000000000000000000000000000000000000000000000000000000000000000, 12732564940800000000000000000000000000000000000000000000000000000000000000000000000000000000, 12728148927800000000000000000000000000000000000000000000000000000000000000000000000000000000, 12723716855600000000000000000000000000000000000000000000000000000000000000000000000000000000, 12719294432800000000000000000000000000000000000000000000000000000000000000000000000000000000, 12714897227300000000000000000000000000000000000000000000000000000000000000000000000000000000, 12710534008000000000000000000000000000000000000000000000000000000000000000000000000000000000, 12706209228000000000000000000000000000000000000000000000000000000000000000000000000000000000, 12701924686000000000000000000000000000000000000000000000000000000000000000000000000000000000, 12697680587500000000000000000000000000000000000000000000000000000000000000000000000000000000, 12693476210300000000000000000000000000000000000000000000000000000000000000000000000000000000, 12689310316000000000000000000000000000000000000000000000000000000000000000000000000000000000, 12685181402200000000000000000000000000000000000000000000000000000000000000000000000000000000, 12681087855800000000000000000000000000000000000000000000000000000000000000000000000000000000, 12677028045500000000000000000000000000000000000000000000000000000000000000000000000000000000, 12673000374900000000000000000000000000000000000000000000000000000000000000000000000000000000, 12669003313300000000000000000000000000000000000000000000000000000000000000000000000000000000, 12665035410600000000000000000000000000000000000000000000000000000000000000000000000000000000, 12661095304400000000000000000000000000000000000000000000000000000000000000000000000000000000, 12657181720200000000000000000000000000000000000000000000000000000000000000000000000000000000, 12653293470000000000000000000000000000000000000000000000000000000000000000000000000000000000, 12649429447500000000000000000000000000000000000000000000000000000000000000000000000000000000, 12645588623500000000000000000000000000000000000000000000000000000000000000000000000000000000, 12641770040400000000000000000000000000000000000000000000000000000000000000000000000000000000, 12637972806600000000000000000000000000000000000000000000000000000000000000000000000000000000, 12634196091500000000000000000000000000000000000000000000000000000000000000000000000000000000, 12630439120000000000000000000000000000000000000000000000000000000000000000000000000000000000, 12626701168600000000000000000000000000000000000000000000000000000000000000000000000000000000, 12622981560200000000000000000000000000000000000000000000000000000000000000000000000000000000, 12619279660800000000000000000000000000000000000000000000000000000000000000000000000000000000, 12615594875600000000000000000000000000000000000000000000000000000000000000000000000000000000, 12611926645800000000000000000000000000000000000000000000000000000000000000000000000000000000, 12608274445700000000000000000000000000000000000000000000000000000000000000000000000000000000, 12604637779700000000000000000000000000000000000000000000000000000000000000000000000000000000, 12601016180500000000000000000000000000000000000000000000000000000000000000000000000000000000, 12597409206100000000000000000000000000000000000000000000000000000000000000000000000000000000]),
  (174732665331000, [12804933487900000000000000000000000000000000000000000000000000000000000000000000000000000000, 12798783605900000000000000000000000000000000000000000000000000000000000000000000000000000000, 12794489655000000000000000000000000000000000000000000000000000000000000000000000000000000000, 12790315059100000000000000000000000000000000000000000000000000000000000000000000000000000000, 12786013941700000000000000000000000000000000000000000000000000000000000000000000000000000000, 12781605865900000000000000000000000000000000000000000000000000000000000000000000000000000000, 12777140612300000000000000000000000000000000000000000000000000000000000000000000000000000000, 12772657758400000000000000000000000000000000000000000000000000000000000000000000000000000000, 12768183432800000000000000000000000000000000000000000000000000000000000000000000000000000000, 12763733506800000000000000000000000000000000000000000000000000000000000000000000000000000000, 12759316982600000000000000000000000000000000000000000000000000000000000000000000000000000000, 12754938502800000000000000000000000000000000000000000000000000000000000000000000000000000000, 12750600023900000000000000000000000000000000000000000000000000000000000000000000000000000000, 12746301885900000000000000000000000000000000000000000000000000000000000000000000000000000000, 12742043480700000000000000000000000000000000000000000000000000000000000000000000000000000000, 12737823667000000000000000000000000000000000000000000000000000000000000000000000000000000000, 12733641024300000000000000000000000000000000000000000000000000000000000000000000000000000000, 12729494008400000000000000000000000000000000000000000000000000000000000000000000000000000000, 12725381045300000000000000000000000000000000000000000000000000000000000000000000000000000000, 12721300586700000000000000000000000000000000000000000000000000000000000000000000000000000000, 12717251141500000000000000000000000000000000000000000000000000000000000000000000000000000000, 12713231292600000000000000000000000000000000000000000000000000000000000000000000000000000000, 12709239704300000000000000000000000000000000000000000000000000000000000000000000000000000000, 12705275124800000000000000000000000000000000000000000000000000000000000000000000000000000000, 12701336384000000000000000000000000000000000000000000000000000000000000000000000000000000000, 12697422390600000000000000000000000000000000000000000000000000000000000000000000000000000000, 12693532127500000000000000000000000000000000000000000000000000000000000000000000000000000000, 12689664646600000000000000000000000000000000000000000000000000000000000000000000000000000000, 12685819064000000000000000000000000000000000000000000000000000000000000000000000000000000000, 12681994554900000000000000000000000000000000000000000000000000000000000000000000000000000000, 12678190348800000000000000000000000000000000000000000000000000000000000000000000000000000000, 12674405725000000000000000000000000000000000000000000000000000000000000000000000000000000000, 12670640008800000000000000000000000000000000000000000000000000000000000000000000000000000000, 12666892567100000000000000000000000000000000000000000000000000000000000000000000000000000000, 12663162805300000000000000000000000000000000000000000000000000000000000000000000000000000000, 12659450164200000000000000000000000000000000000000000000000000000000000000000000000000000000, 12655754116700000000000000000000000000000000000000000000000000000000000000000000000000000000, 12652074165800000000000000000000000000000000000000000000000000000000000000000000000000000000, 12648409841600000000000000000000000000000000000000000000000000000000000000000000000000000000, 12644760699600000000000000000000000000000000000000000000000000000000000000000000000000000000]),
  (176836673347000, [12847342074200000000000000000000000000000000000000000000000000000000000000000000000000000000, 12841197513800000000000000000000000000000000000000000000000000000000000000000000000000000000, 12836901593400000000000000000000000000000000000000000000000000000000000000000000000000000000, 12832716526900000000000000000000000000000000000000000000000000000000000000000000000000000000, 12828398608600000000000000000000000000000000000000000000000000000000000000000000000000000000, 12823969379900000000000000000000000000000000000000000000000000000000000000000000000000000000, 12819479950500000000000000000000000000000000000000000000000000000000000000000000000000000000, 12814970757400000000000000000000000000000000000000000000000000000000000000000000000000000000, 12810468507900000000000000000000000000000000000000000000000000000000000000000000000000000000, 12805989484700000000000000000000000000000000000000000000000000000000000000000000000000000000, 12801542997600000000000000000000000000000000000000000000000000000000000000000000000000000000, 12797133927400000000000000000000000000000000000000000000000000000000000000000000000000000000, 12792764420500000000000000000000000000000000000000000000000000000000000000000000000000000000, 12788434970200000000000000000000000000000000000000000000000000000000000000000000000000000000, 12784145094600000000000000000000000000000000000000000000000000000000000000000000000000000000, 12779893755900000000000000000000000000000000000000000000000000000000000000000000000000000000, 12775679619800000000000000000000000000000000000000000000000000000000000000000000000000000000, 12771501214100000000000000000000000000000000000000000000000000000000000000000000000000000000, 12767357024800000000000000000000000000000000000000000000000000000000000000000000000000000000, 12763245553700000000000000000000000000000000000000000000000000000000000000000000000000000000, 12759165351900000000000000000000000000000000000000000000000000000000000000000000000000000000, 12755115037400000000000000000000000000000000000000000000000000000000000000000000000000000000, 12751093304400000000000000000000000000000000000000000000000000000000000000000000000000000000, 12747098925500000000000000000000000000000000000000000000000000000000000000000000000000000000, 12743130751400000000000000000000000000000000000000000000000000000000000000000000000000000000, 12739187708100000000000000000000000000000000000000000000000000000000000000000000000000000000, 12735268792400000000000000000000000000000000000000000000000000000000000000000000000000000000, 12731373068200000000000000000000000000000000000000000000000000000000000000000000000000000000, 12727499661100000000000000000000000000000000000000000000000000000000000000000000000000000000, 12723647753800000000000000000000000000000000000000000000000000000000000000000000000000000000, 12719816581900000000000000000000000000000000000000000000000000000000000000000000000000000000, 12716005429500000000000000000000000000000000000000000000000000000000000000000000000000000000, 12712213624900000000000000000000000000000000000000000000000000000000000000000000000000000000, 12708440537600000000000000000000000000000000000000000000000000000000000000000000000000000000, 12704685574300000000000000000000000000000000000000000000000000000000000000000000000000000000, 12700948176300000000000000000000000000000000000000000000000000000000000000000000000000000000, 12697227816500000000000000000000000000000000000000000000000000000000000000000000000000000000, 12693523997000000000000000000000000000000000000000000000000000000000000000000000000000000000, 12689836246700000000000000000000000000000000000000000000000000000000000000000000000000000000, 12686164119100000000000000000000000000000000000000000000000000000000000000000000000000000000]),
  (178940681363000, [12882696100700000000000000000000000000000000000000000000000000000000000000000000000000000000, 12876594781400000000000000000000000000000000000000000000000000000000000000000000000000000000, 12872330576400000000000000000000000000000000000000000000000000000000000000000000000000000000, 12868166735100000000000000000000000000000000000000000000000000000000000000000000000000000000, 12863862554200000000000000000000000000000000000000000000000000000000000000000000000000000000, 12859441913800000000000000000000000000000000000000000000000000000000000000000000000000000000, 12854957421200000000000000000000000000000000000000000000000000000000000000000000000000000000, 12850450474000000000000000000000000000000000000000000000000000000000000000000000000000000000, 12845948433500000000000000000000000000000000000000000000000000000000000000000000000000000000, 12841468055000000000000000000000000000000000000000000000000000000000000000000000000000000000, 12837019004200000000000000000000000000000000000000000000000000000000000000000000000000000000, 12832606436100000000000000000000000000000000000000000000000000000000000000000000000000000000, 12828232712200000000000000000000000000000000000000000000000000000000000000000000000000000000, 12823898496700000000000000000000000000000000000000000000000000000000000000000000000000000000, 12819603445100000000000000000000000000000000000000000000000000000000000000000000000000000000, 12815346631700000000000000000000000000000000000000000000000000000000000000000000000000000000, 12811126814600000000000000000000000000000000000000000000000000000000000000000000000000000000, 12806942598500000000000000000000000000000000000000000000000000000000000000000000000000000000, 12802792534000000000000000000000000000000000000000000000000000000000000000000000000000000000, 12798675177700000000000000000000000000000000000000000000000000000000000000000000000000000000, 12794589126900000000000000000000000000000000000000000000000000000000000000000000000000000000, 12790533039500000000000000000000000000000000000000000000000000000000000000000000000000000000, 12786505643300000000000000000000000000000000000000000000000000000000000000000000000000000000, 12782505740000000000000000000000000000000000000000000000000000000000000000000000000000000000, 12778532204900000000000000000000000000000000000000000000000000000000000000000000000000000000, 12774583985000000000000000000000000000000000000000000000000000000000000000000000000000000000, 12770660095300000000000000000000000000000000000000000000000000000000000000000000000000000000, 12766759614800000000000000000000000000000000000000000000000000000000000000000000000000000000, 12762881681800000000000000000000000000000000000000000000000000000000000000000000000000000000, 12759025490100000000000000000000000000000000000000000000000000000000000000000000000000000000, 12755190284100000000000000000000000000000000000000000000000000000000000000000000000000000000, 12751375355200000000000000000000000000000000000000000000000000000000000000000000000000000000, 12747580038000000000000000000000000000000000000000000000000000000000000000000000000000000000, 12743803706600000000000000000000000000000000000000000000000000000000000000000000000000000000, 12740045771600000000000000000000000000000000000000000000000000000000000000000000000000000000, 12736305677000000000000000000000000000000000000000000000000000000000000000000000000000000000, 12732582897800000000000000000000000000000000000000000000000000000000000000000000000000000000, 12728876937200000000000000000000000000000000000000000000000000000000000000000000000000000000, 12725187324900000000000000000000000000000000000000000000000000000000000000000000000000000000, 12721513614500000000000000000000000000000000000000000000000000000000000000000000000000000000]),
  (181044689379000, [12910872658600000000000000000000000000000000000000000000000000000000000000000000000000000000, 12904839336100000000000000000000000000000000000000000000000000000000000000000000000000000000, 12900636072400000000000000000000000000000000000000000000000000000000000000000000000000000000, 12896524517500000000000000000000000000000000000000000000000000000000000000000000000000000000, 12892265902500000000000000000000000000000000000000000000000000000000000000000000000000000000, 12887885934900000000000000000000000000000000000000000000000000000000000000000000000000000000, 12883438441600000000000000000000000000000000000000000000000000000000000000000000000000000000, 12878965624000000000000000000000000000000000000000000000000000000000000000000000000000000000, 12874495411200000000000000000000000000000000000000000000000000000000000000000000000000000000, 12870044985800000000000000000000000000000000000000000000000000000000000000000000000000000000, 12865624346100000000000000000000000000000000000000000000000000000000000000000000000000000000, 12861238912100000000000000000000000000000000000000000000000000000000000000000000000000000000, 12856891258300000000000000000000000000000000000000000000000000000000000000000000000000000000, 12852582222100000000000000000000000000000000000000000000000000000000000000000000000000000000, 12848311601200000000000000000000000000000000000000000000000000000000000000000000000000000000, 12844078588500000000000000000000000000000000000000000000000000000000000000000000000000000000, 12839882041400000000000000000000000000000000000000000000000000000000000000000000000000000000, 12835720649100000000000000000000000000000000000000000000000000000000000000000000000000000000, 12831593034600000000000000000000000000000000000000000000000000000000000000000000000000000000, 12827497816600000000000000000000000000000000000000000000000000000000000000000000000000000000, 12823433646700000000000000000000000000000000000000000000000000000000000000000000000000000000, 12819399229300000000000000000000000000000000000000000000000000000000000000000000000000000000, 12815393333300000000000000000000000000000000000000000000000000000000000000000000000000000000, 12811414795700000000000000000000000000000000000000000000000000000000000000000000000000000000, 12807462523200000000000000000000000000000000000000000000000000000000000000000000000000000000, 12803535489700000000000000000000000000000000000000000000000000000000000000000000000000000000, 12799632733700000000000000000000000000000000000000000000000000000000000000000000000000000000, 12795753354900000000000000000000000000000000000000000000000000000000000000000000000000000000, 12791896509400000000000000000000000000000000000000000000000000000000000000000000000000000000, 12788061406500000000000000000000000000000000000000000000000000000000000000000000000000000000, 12784247304300000000000000000000000000000000000000000000000000000000000000000000000000000000, 12780453505700000000000000000000000000000000000000000000000000000000000000000000000000000000, 12776679355400000000000000000000000000000000000000000000000000000000000000000000000000000000, 12772924236100000000000000000000000000000000000000000000000000000000000000000000000000000000, 12769187566000000000000000000000000000000000000000000000000000000000000000000000000000000000, 12765468795400000000000000000000000000000000000000000000000000000000000000000000000000000000, 12761767404500000000000000000000000000000000000000000000000000000000000000000000000000000000, 12758082901300000000000000000000000000000000000000000000000000000000000000000000000000000000, 12754414819200000000000000000000000000000000000000000000000000000000000000000000000000000000, 12750762714900000000000000000000000000000000000000000000000000000000000000000000000000000000]),
  (183148697395000, [12931815227900000000000000000000000000000000000000000000000000000000000000000000000000000000, 12925876380000000000000000000000000000000000000000000000000000000000000000000000000000000000, 12921763374000000000000000000000000000000000000000000000000000000000000000000000000000000000, 12917735683400000000000000000000000000000000000000000000000000000000000000000000000000000000, 12913555713600000000000000000000000000000000000000000000000000000000000000000000000000000000, 12909250371100000000000000000000000000000000000000000000000000000000000000000000000000000000, 12904874250000000000000000000000000000000000000000000000000000000000000000000000000000000000, 12900470043600000000000000000000000000000000000000000000000000000000000000000000000000000000, 12896066038000000000000000000000000000000000000000000000000000000000000000000000000000000000, 12891679704300000000000000000000000000000000000000000000000000000000000000000000000000000000, 12887321286700000000000000000000000000000000000000000000000000000000000000000000000000000000, 12882996418500000000000000000000000000000000000000000000000000000000000000000000000000000000, 12878707859600000000000000000000000000000000000000000000000000000000000000000000000000000000, 12874456609500000000000000000000000000000000000000000000000000000000000000000000000000000000, 12870242607400000000000000000000000000000000000000000000000000000000000000000000000000000000, 12866065169300000000000000000000000000000000000000000000000000000000000000000000000000000000, 12861923261200000000000000000000000000000000000000000000000000000000000000000000000000000000, 12857815667000000000000000000000000000000000000000000000000000000000000000000000000000000000, 12853741093200000000000000000000000000000000000000000000000000000000000000000000000000000000, 12849698232100000000000000000000000000000000000000000000000000000000000000000000000000000000, 12845685800100000000000000000000000000000000000000000000000000000000000000000000000000000000, 12841702559100000000000000000000000000000000000000000000000000000000000000000000000000000000, 12837747328300000000000000000000000000000000000000000000000000000000000000000000000000000000, 12833818989800000000000000000000000000000000000000000000000000000000000000000000000000000000, 12829916489700000000000000000000000000000000000000000000000000000000000000000000000000000000, 12826038837100000000000000000000000000000000000000000000000000000000000000000000000000000000, 12822185101800000000000000000000000000000000000000000000000000000000000000000000000000000000, 12818354411000000000000000000000000000000000000000000000000000000000000000000000000000000000, 12814545945500000000000000000000000000000000000000000000000000000000000000000000000000000000, 12810758936300000000000000000000000000000000000000000000000000000000000000000000000000000000, 12806992661000000000000000000000000000000000000000000000000000000000000000000000000000000000, 12803246439900000000000000000000000000000000000000000000000000000000000000000000000000000000, 12799519633100000000000000000000000000000000000000000000000000000000000000000000000000000000, 12795811637200000000000000000000000000000000000000000000000000000000000000000000000000000000, 12792121882600000000000000000000000000000000000000000000000000000000000000000000000000000000, 12788449830900000000000000000000000000000000000000000000000000000000000000000000000000000000, 12784794972200000000000000000000000000000000000000000000000000000000000000000000000000000000, 12781156823500000000000000000000000000000000000000000000000000000000000000000000000000000000, 12777534925900000000000000000000000000000000000000000000000000000000000000000000000000000000, 12773928843700000000000000000000000000000000000000000000000000000000000000000000000000000000]),
  (185252705411000, [12945546096500000000000000000000000000000000000000000000000000000000000000000000000000000000, 12939739941100000000000000000000000000000000000000000000000000000000000000000000000000000000, 12935750364300000000000000000000000000000000000000000000000000000000000000000000000000000000, 12931840382500000000000000000000000000000000000000000000000000000000000000000000000000000000, 12927774133700000000000000000000000000000000000000000000000000000000000000000000000000000000, 12923579343200000000000000000000000000000000000000000000000000000000000000000000000000000000, 12919310945400000000000000000000000000000000000000000000000000000000000000000000000000000000, 12915011794300000000000000000000000000000000000000000000000000000000000000000000000000000000, 12910710300400000000000000000000000000000000000000000000000000000000000000000000000000000000, 12906424068800000000000000000000000000000000000000000000000000000000000000000000000000000000, 12902163492500000000000000000000000000000000000000000000000000000000000000000000000000000000, 12897934361700000000000000000000000000000000000000000000000000000000000000000000000000000000, 12893739594000000000000000000000000000000000000000000000000000000000000000000000000000000000, 12889580340700000000000000000000000000000000000000000000000000000000000000000000000000000000, 12885456683800000000000000000000000000000000000000000000000000000000000000000000000000000000, 12881368071200000000000000000000000000000000000000000000000000000000000000000000000000000000, 12877313588800000000000000000000000000000000000000000000000000000000000000000000000000000000, 12873292129200000000000000000000000000000000000000000000000000000000000000000000000000000000, 12869302496300000000000000000000000000000000000000000000000000000000000000000000000000000000, 12865343470000000000000000000000000000000000000000000000000000000000000000000000000000000000, 12861413844600000000000000000000000000000000000000000000000000000000000000000000000000000000, 12857512451800000000000000000000000000000000000000000000000000000000000000000000000000000000, 12853638173200000000000000000000000000000000000000000000000000000000000000000000000000000000, 12849789946500000000000000000000000000000000000000000000000000000000000000000000000000000000, 12845966767600000000000000000000000000000000000000000000000000000000000000000000000000000000, 12842167690200000000000000000000000000000000000000000000000000000000000000000000000000000000, 12838391824100000000000000000000000000000000000000000000000000000000000000000000000000000000, 12834638332500000000000000000000000000000000000000000000000000000000000000000000000000000000, 12830906428500000000000000000000000000000000000000000000000000000000000000000000000000000000, 12827195372500000000000000000000000000000000000000000000000000000000000000000000000000000000, 12823504468500000000000000000000000000000000000000000000000000000000000000000000000000000000, 12819833060900000000000000000000000000000000000000000000000000000000000000000000000000000000, 12816180531700000000000000000000000000000000000000000000000000000000000000000000000000000000, 12812546297400000000000000000000000000000000000000000000000000000000000000000000000000000000, 12808929806800000000000000000000000000000000000000000000000000000000000000000000000000000000, 12805330538100000000000000000000000000000000000000000000000000000000000000000000000000000000, 12801747996900000000000000000000000000000000000000000000000000000000000000000000000000000000, 12798181714400000000000000000000000000000000000000000000000000000000000000000000000000000000, 12794631245000000000000000000000000000000000000000000000000000000000000000000000000000000000, 12791096165000000000000000000000000000000000000000000000000000000000000000000000000000000000]),
  (187356713427000, [12952193769800000000000000000000000000000000000000000000000000000000000000000000000000000000, 12946562058200000000000000000000000000000000000000000000000000000000000000000000000000000000, 12942734741200000000000000000000000000000000000000000000000000000000000000000000000000000000, 12938980474700000000000000000000000000000000000000000000000000000000000000000000000000000000, 12935065824100000000000000000000000000000000000000000000000000000000000000000000000000000000, 12931019418700000000000000000000000000000000000000000000000000000000000000000000000000000000, 12926896426200000000000000000000000000000000000000000000000000000000000000000000000000000000, 12922739729200000000000000000000000000000000000000000000000000000000000000000000000000000000, 12918577756200000000000000000000000000000000000000000000000000000000000000000000000000000000, 12914428174700000000000000000000000000000000000000000000000000000000000000000000000000000000, 12910301485000000000000000000000000000000000000000000000000000000000000000000000000000000000, 12906203614900000000000000000000000000000000000000000000000000000000000000000000000000000000, 12902137634700000000000000000000000000000000000000000000000000000000000000000000000000000000, 12898104852400000000000000000000000000000000000000000000000000000000000000000000000000000000, 12894105502900000000000000000000000000000000000000000000000000000000000000000000000000000000, 12890139179600000000000000000000000000000000000000000000000000000000000000000000000000000000, 12886205103000000000000000000000000000000000000000000000000000000000000000000000000000000000, 12882302289300000000000000000000000000000000000000000000000000000000000000000000000000000000, 12878429654700000000000000000000000000000000000000000000000000000000000000000000000000000000, 12874586080400000000000000000000000000000000000000000000000000000000000000000000000000000000, 12870770452200000000000000000000000000000000000000000000000000000000000000000000000000000000, 12866981683900000000000000000000000000000000000000000000000000000000000000000000000000000000, 12863218731200000000000000000000000000000000000000000000000000000000000000000000000000000000, 12859480598100000000000000000000000000000000000000000000000000000000000000000000000000000000, 12855766340600000000000000000000000000000000000000000000000000000000000000000000000000000000, 12852075066700000000000000000000000000000000000000000000000000000000000000000000000000000000, 12848405935000000000000000000000000000000000000000000000000000000000000000000000000000000000, 12844758153300000000000000000000000000000000000000000000000000000000000000000000000000000000, 12841130975400000000000000000000000000000000000000000000000000000000000000000000000000000000, 12837523698700000000000000000000000000000000000000000000000000000000000000000000000000000000, 12833935661000000000000000000000000000000000000000000000000000000000000000000000000000000000, 12830366238000000000000000000000000000000000000000000000000000000000000000000000000000000000, 12826814840400000000000000000000000000000000000000000000000000000000000000000000000000000000, 12823280911400000000000000000000000000000000000000000000000000000000000000000000000000000000, 12819763924300000000000000000000000000000000000000000000000000000000000000000000000000000000, 12816263380300000000000000000000000000000000000000000000000000000000000000000000000000000000, 12812778806400000000000000000000000000000000000000000000000000000000000000000000000000000000, 12809309753700000000000000000000000000000000000000000000000000000000000000000000000000000000, 12805855795500000000000000000000000000000000000000000000000000000000000000000000000000000000, 12802416525700000000000000000000000000000000000000000000000000000000000000000000000000000000]),
  (189460721443000, [12951992273400000000000000000000000000000000000000000000000000000000000000000000000000000000, 12946583922400000000000000000000000000000000000000000000000000000000000000000000000000000000, 12942964030900000000000000000000000000000000000000000000000000000000000000000000000000000000, 12939407266000000000000000000000000000000000000000000000000000000000000000000000000000000000, 12935683835200000000000000000000000000000000000000000000000000000000000000000000000000000000, 12931824084900000000000000000000000000000000000000000000000000000000000000000000000000000000, 12927883830000000000000000000000000000000000000000000000000000000000000000000000000000000000, 12923906176900000000000000000000000000000000000000000000000000000000000000000000000000000000, 12919919667300000000000000000000000000000000000000000000000000000000000000000000000000000000, 12915942083200000000000000000000000000000000000000000000000000000000000000000000000000000000, 12911984065700000000000000000000000000000000000000000000000000000000000000000000000000000000, 12908051704700000000000000000000000000000000000000000000000000000000000000000000000000000000, 12904148243900000000000000000000000000000000000000000000000000000000000000000000000000000000, 12900275165800000000000000000000000000000000000000000000000000000000000000000000000000000000, 12896432874700000000000000000000000000000000000000000000000000000000000000000000000000000000, 12892621123400000000000000000000000000000000000000000000000000000000000000000000000000000000, 12888839280800000000000000000000000000000000000000000000000000000000000000000000000000000000, 12885086499300000000000000000000000000000000000000000000000000000000000000000000000000000000, 12881361818900000000000000000000000000000000000000000000000000000000000000000000000000000000, 12877664233500000000000000000000000000000000000000000000000000000000000000000000000000000000, 12873992730400000000000000000000000000000000000000000000000000000000000000000000000000000000, 12870346315500000000000000000000000000000000000000000000000000000000000000000000000000000000, 12866724027900000000000000000000000000000000000000000000000000000000000000000000000000000000, 12863124947000000000000000000000000000000000000000000000000000000000000000000000000000000000, 12859548197500000000000000000000000000000000000000000000000000000000000000000000000000000000, 12855992949500000000000000000000000000000000000000000000000000000000000000000000000000000000, 12852458419100000000000000000000000000000000000000000000000000000000000000000000000000000000, 12848943866000000000000000000000000000000000000000000000000000000000000000000000000000000000, 12845448592200000000000000000000000000000000000000000000000000000000000000000000000000000000, 12841971939200000000000000000000000000000000000000000000000000000000000000000000000000000000, 12838513285900000000000000000000000000000000000000000000000000000000000000000000000000000000, 12835072045900000000000000000000000000000000000000000000000000000000000000000000000000000000, 12831647665200000000000000000000000000000000000000000000000000000000000000000000000000000000, 12828239620100000000000000000000000000000000000000000000000000000000000000000000000000000000, 12824847414900000000000000000000000000000000000000000000000000000000000000000000000000000000, 12821470579600000000000000000000000000000000000000000000000000000000000000000000000000000000, 12818108668700000000000000000000000000000000000000000000000000000000000000000000000000000000, 12814761259000000000000000000000000000000000000000000000000000000000000000000000000000000000, 12811427948000000000000000000000000000000000000000000000000000000000000000000000000000000000, 12808108352800000000000000000000000000000000000000000000000000000000000000000000000000000000]),
  (191564729459000, [12945313820200000000000000000000000000000000000000000000000000000000000000000000000000000000, 12940176142000000000000000000000000000000000000000000000000000000000000000000000000000000000, 12936805910800000000000000000000000000000000000000000000000000000000000000000000000000000000, 12933485711400000000000000000000000000000000000000000000000000000000000000000000000000000000, 12929990376200000000000000000000000000000000000000000000000000000000000000000000000000000000, 12926352624200000000000000000000000000000000000000000000000000000000000000000000000000000000, 12922629362100000000000000000000000000000000000000000000000000000000000000000000000000000000, 12918864198900000000000000000000000000000000000000000000000000000000000000000000000000000000, 12915085956500000000000000000000000000000000000000000000000000000000000000000000000000000000, 12911312630100000000000000000000000000000000000000000000000000000000000000000000000000000000, 12907555061300000000000000000000000000000000000000000000000000000000000000000000000000000000, 12903819540000000000000000000000000000000000000000000000000000000000000000000000000000000000, 12900109507100000000000000000000000000000000000000000000000000000000000000000000000000000000, 12896426635600000000000000000000000000000000000000000000000000000000000000000000000000000000, 12892771510400000000000000000000000000000000000000000000000000000000000000000000000000000000, 12889144052500000000000000000000000000000000000000000000000000000000000000000000000000000000, 12885543785900000000000000000000000000000000000000000000000000000000000000000000000000000000, 12881970004800000000000000000000000000000000000000000000000000000000000000000000000000000000, 12878421878900000000000000000000000000000000000000000000000000000000000000000000000000000000, 12874898519500000000000000000000000000000000000000000000000000000000000000000000000000000000, 12871399021300000000000000000000000000000000000000000000000000000000000000000000000000000000, 12867922487400000000000000000000000000000000000000000000000000000000000000000000000000000000, 12864468045700000000000000000000000000000000000000000000000000000000000000000000000000000000, 12861034856800000000000000000000000000000000000000000000000000000000000000000000000000000000, 12857622119400000000000000000000000000000000000000000000000000000000000000000000000000000000, 12854229072200000000000000000000000000000000000000000000000000000000000000000000000000000000, 12850854993700000000000000000000000000000000000000000000000000000000000000000000000000000000, 12847499202100000000000000000000000000000000000000000000000000000000000000000000000000000000, 12844161053000000000000000000000000000000000000000000000000000000000000000000000000000000000, 12840839938000000000000000000000000000000000000000000000000000000000000000000000000000000000, 12837535282900000000000000000000000000000000000000000000000000000000000000000000000000000000, 12834246544900000000000000000000000000000000000000000000000000000000000000000000000000000000, 12830973211200000000000000000000000000000000000000000000000000000000000000000000000000000000, 12827714796500000000000000000000000000000000000000000000000000000000000000000000000000000000, 12824470841600000000000000000000000000000000000000000000000000000000000000000000000000000000, 12821240911000000000000000000000000000000000000000000000000000000000000000000000000000000000, 12818024591700000000000000000000000000000000000000000000000000000000000000000000000000000000, 12814821491400000000000000000000000000000000000000000000000000000000000000000000000000000000, 12811631237200000000000000000000000000000000000000000000000000000000000000000000000000000000, 12808453474200000000000000000000000000000000000000000000000000000000000000000000000000000000]),
  (193668737475000, [12932675506500000000000000000000000000000000000000000000000000000000000000000000000000000000, 12927832806200000000000000000000000000000000000000000000000000000000000000000000000000000000, 12924739820400000000000000000000000000000000000000000000000000000000000000000000000000000000, 12921685379200000000000000000000000000000000000000000000000000000000000000000000000000000000, 12918447545100000000000000000000000000000000000000000000000000000000000000000000000000000000, 12915060880300000000000000000000000000000000000000000000000000000000000000000000000000000000, 12911583271400000000000000000000000000000000000000000000000000000000000000000000000000000000, 12908058853100000000000000000000000000000000000000000000000000000000000000000000000000000000, 12904516775300000000000000000000000000000000000000000000000000000000000000000000000000000000, 12900975286400000000000000000000000000000000000000000000000000000000000000000000000000000000, 12897445454300000000000000000000000000000000000000000000000000000000000000000000000000000000, 12893933783100000000000000000000000000000000000000000000000000000000000000000000000000000000, 12890443917400000000000000000000000000000000000000000000000000000000000000000000000000000000, 12886977723100000000000000000000000000000000000000000000000000000000000000000000000000000000, 12883535964500000000000000000000000000000000000000000000000000000000000000000000000000000000, 12880118728600000000000000000000000000000000000000000000000000000000000000000000000000000000, 12876725692000000000000000000000000000000000000000000000000000000000000000000000000000000000, 12873356288400000000000000000000000000000000000000000000000000000000000000000000000000000000, 12870009815100000000000000000000000000000000000000000000000000000000000000000000000000000000, 12866685500000000000000000000000000000000000000000000000000000000000000000000000000000000000, 12863382544300000000000000000000000000000000000000000000000000000000000000000000000000000000, 12860100149100000000000000000000000000000000000000000000000000000000000000000000000000000000, 12856837531700000000000000000000000000000000000000000000000000000000000000000000000000000000, 12853593935700000000000000000000000000000000000000000000000000000000000000000000000000000000, 12850368636400000000000000000000000000000000000000000000000000000000000000000000000000000000, 12847160943100000000000000000000000000000000000000000000000000000000000000000000000000000000, 12843970200400000000000000000000000000000000000000000000000000000000000000000000000000000000, 12840795787800000000000000000000000000000000000000000000000000000000000000000000000000000000, 12837637118700000000000000000000000000000000000000000000000000000000000000000000000000000000, 12834493638500000000000000000000000000000000000000000000000000000000000000000000000000000000, 12831364823700000000000000000000000000000000000000000000000000000000000000000000000000000000, 12828250179400000000000000000000000000000000000000000000000000000000000000000000000000000000, 12825149238100000000000000000000000000000000000000000000000000000000000000000000000000000000, 12822061557200000000000000000000000000000000000000000000000000000000000000000000000000000000, 12818986718000000000000000000000000000000000000000000000000000000000000000000000000000000000, 12815924323800000000000000000000000000000000000000000000000000000000000000000000000000000000, 12812873998400000000000000000000000000000000000000000000000000000000000000000000000000000000, 12809835384500000000000000000000000000000000000000000000000000000000000000000000000000000000, 12806808142700000000000000000000000000000000000000000000000000000000000000000000000000000000, 12803791950100000000000000000000000000000000000000000000000000000000000000000000000000000000]),
  (195772745491000, [12914660545600000000000000000000000000000000000000000000000000000000000000000000000000000000, 12910125333300000000000000000000000000000000000000000000000000000000000000000000000000000000, 12907326665500000000000000000000000000000000000000000000000000000000000000000000000000000000, 12904557889800000000000000000000000000000000000000000000000000000000000000000000000000000000, 12901598889200000000000000000000000000000000000000000000000000000000000000000000000000000000, 12898485222300000000000000000000000000000000000000000000000000000000000000000000000000000000, 12895275335900000000000000000000000000000000000000000000000000000000000000000000000000000000, 12892013718100000000000000000000000000000000000000000000000000000000000000000000000000000000, 12888729786100000000000000000000000000000000000000000000000000000000000000000000000000000000, 12885442022100000000000000000000000000000000000000000000000000000000000000000000000000000000, 12882161712100000000000000000000000000000000000000000000000000000000000000000000000000000000, 12878895566900000000000000000000000000000000000000000000000000000000000000000000000000000000, 12875647426600000000000000000000000000000000000000000000000000000000000000000000000000000000, 12872419339300000000000000000000000000000000000000000000000000000000000000000000000000000000, 12869212238200000000000000000000000000000000000000000000000000000000000000000000000000000000, 12866026365900000000000000000000000000000000000000000000000000000000000000000000000000000000, 12862861541700000000000000000000000000000000000000000000000000000000000000000000000000000000, 12859717330100000000000000000000000000000000000000000000000000000000000000000000000000000000, 12856593148200000000000000000000000000000000000000000000000000000000000000000000000000000000, 12853488334100000000000000000000000000000000000000000000000000000000000000000000000000000000, 12850402190300000000000000000000000000000000000000000000000000000000000000000000000000000000, 12847334011600000000000000000000000000000000000000000000000000000000000000000000000000000000, 12844283102400000000000000000000000000000000000000000000000000000000000000000000000000000000, 12841248786900000000000000000000000000000000000000000000000000000000000000000000000000000000, 12838230415700000000000000000000000000000000000000000000000000000000000000000000000000000000, 12835227368800000000000000000000000000000000000000000000000000000000000000000000000000000000, 12832239057000000000000000000000000000000000000000000000000000000000000000000000000000000000, 12829264922100000000000000000000000000000000000000000000000000000000000000000000000000000000, 12826304436000000000000000000000000000000000000000000000000000000000000000000000000000000000, 12823357100000000000000000000000000000000000000000000000000000000000000000000000000000000000, 12820422443000000000000000000000000000000000000000000000000000000000000000000000000000000000, 12817500020100000000000000000000000000000000000000000000000000000000000000000000000000000000, 12814589411100000000000000000000000000000000000000000000000000000000000000000000000000000000, 12811690218900000000000000000000000000000000000000000000000000000000000000000000000000000000, 12808802067900000000000000000000000000000000000000000000000000000000000000000000000000000000, 12805924602600000000000000000000000000000000000000000000000000000000000000000000000000000000, 12803057486000000000000000000000000000000000000000000000000000000000000000000000000000000000, 12800200398900000000000000000000000000000000000000000000000000000000000000000000000000000000, 12797353037900000000000000000000000000000000000000000000000000000000000000000000000000000000, 12794515114900000000000000000000000000000000000000000000000000000000000000000000000000000000]),
  (197876753507000, [12891882202500000000000000000000000000000000000000000000000000000000000000000000000000000000, 12887671690200000000000000000000000000000000000000000000000000000000000000000000000000000000, 12885182332300000000000000000000000000000000000000000000000000000000000000000000000000000000, 12882714379900000000000000000000000000000000000000000000000000000000000000000000000000000000, 12880049724700000000000000000000000000000000000000000000000000000000000000000000000000000000, 12877224720400000000000000000000000000000000000000000000000000000000000000000000000000000000, 12874298244700000000000000000000000000000000000000000000000000000000000000000000000000000000, 12871315102000000000000000000000000000000000000000000000000000000000000000000000000000000000, 12868304981300000000000000000000000000000000000000000000000000000000000000000000000000000000, 12865286611000000000000000000000000000000000000000000000000000000000000000000000000000000000, 12862271502300000000000000000000000000000000000000000000000000000000000000000000000000000000, 12859266572100000000000000000000000000000000000000000000000000000000000000000000000000000000, 12856275849000000000000000000000000000000000000000000000000000000000000000000000000000000000, 12853301553000000000000000000000000000000000000000000000000000000000000000000000000000000000, 12850344773700000000000000000000000000000000000000000000000000000000000000000000000000000000, 12847405896300000000000000000000000000000000000000000000000000000000000000000000000000000000, 12844484869800000000000000000000000000000000000000000000000000000000000000000000000000000000, 12841581377600000000000000000000000000000000000000000000000000000000000000000000000000000000, 12838694945700000000000000000000000000000000000000000000000000000000000000000000000000000000, 12835825012800000000000000000000000000000000000000000000000000000000000000000000000000000000, 12832970974700000000000000000000000000000000000000000000000000000000000000000000000000000000, 12830132212900000000000000000000000000000000000000000000000000000000000000000000000000000000, 12827308112600000000000000000000000000000000000000000000000000000000000000000000000000000000, 12824498074200000000000000000000000000000000000000000000000000000000000000000000000000000000, 12821701519900000000000000000000000000000000000000000000000000000000000000000000000000000000, 12818917897100000000000000000000000000000000000000000000000000000000000000000000000000000000, 12816146680600000000000000000000000000000000000000000000000000000000000000000000000000000000, 12813387372700000000000000000000000000000000000000000000000000000000000000000000000000000000, 12810639503100000000000000000000000000000000000000000000000000000000000000000000000000000000, 12807902627600000000000000000000000000000000000000000000000000000000000000000000000000000000, 12805176327600000000000000000000000000000000000000000000000000000000000000000000000000000000, 12802460208100000000000000000000000000000000000000000000000000000000000000000000000000000000, 12799753896600000000000000000000000000000000000000000000000000000000000000000000000000000000, 12797057041600000000000000000000000000000000000000000000000000000000000000000000000000000000, 12794369311400000000000000000000000000000000000000000000000000000000000000000000000000000000, 12791690392200000000000000000000000000000000000000000000000000000000000000000000000000000000, 12789019987600000000000000000000000000000000000000000000000000000000000000000000000000000000, 12786357816800000000000000000000000000000000000000000000000000000000000000000000000000000000, 12783703614000000000000000000000000000000000000000000000000000000000000000000000000000000000, 12781057126900000000000000000000000000000000000000000000000000000000000000000000000000000000]),
  (199980761523000, [12865013221600000000000000000000000000000000000000000000000000000000000000000000000000000000, 12861136476800000000000000000000000000000000000000000000000000000000000000000000000000000000, 12858967973300000000000000000000000000000000000000000000000000000000000000000000000000000000, 12856811935800000000000000000000000000000000000000000000000000000000000000000000000000000000, 12854451864500000000000000000000000000000000000000000000000000000000000000000000000000000000, 12851925120400000000000000000000000000000000000000000000000000000000000000000000000000000000, 12849291287800000000000000000000000000000000000000000000000000000000000000000000000000000000, 12846595694500000000000000000000000000000000000000000000000000000000000000000000000000000000, 12843868433500000000000000000000000000000000000000000000000000000000000000000000000000000000, 12841128555500000000000000000000000000000000000000000000000000000000000000000000000000000000, 12838387836000000000000000000000000000000000000000000000000000000000000000000000000000000000, 12835653414300000000000000000000000000000000000000000000000000000000000000000000000000000000, 12832929508900000000000000000000000000000000000000000000000000000000000000000000000000000000, 12830218505200000000000000000000000000000000000000000000000000000000000000000000000000000000, 12827521638400000000000000000000000000000000000000000000000000000000000000000000000000000000, 12824839423000000000000000000000000000000000000000000000000000000000000000000000000000000000, 12822171924500000000000000000000000000000000000000000000000000000000000000000000000000000000, 12819518931800000000000000000000000000000000000000000000000000000000000000000000000000000000, 12816880067700000000000000000000000000000000000000000000000000000000000000000000000000000000, 12814254860300000000000000000000000000000000000000000000000000000000000000000000000000000000, 12811642788300000000000000000000000000000000000000000000000000000000000000000000000000000000, 12809043311000000000000000000000000000000000000000000000000000000000000000000000000000000000, 12806455886900000000000000000000000000000000000000000000000000000000000000000000000000000000, 12803879985600000000000000000000000000000000000000000000000000000000000000000000000000000000, 12801315094700000000000000000000000000000000000000000000000000000000000000000000000000000000, 12798760724100000000000000000000000000000000000000000000000000000000000000000000000000000000, 12796216407900000000000000000000000000000000000000000000000000000000000000000000000000000000, 12793681705300000000000000000000000000000000000000000000000000000000000000000000000000000000, 12791156200100000000000000000000000000000000000000000000000000000000000000000000000000000000, 12788639500100000000000000000000000000000000000000000000000000000000000000000000000000000000, 12786131236500000000000000000000000000000000000000000000000000000000000000000000000000000000, 12783631062000000000000000000000000000000000000000000000000000000000000000000000000000000000, 12781138649900000000000000000000000000000000000000000000000000000000000000000000000000000000, 12778653693000000000000000000000000000000000000000000000000000000000000000000000000000000000, 12776175901600000000000000000000000000000000000000000000000000000000000000000000000000000000, 12773705003000000000000000000000000000000000000000000000000000000000000000000000000000000000, 12771240740000000000000000000000000000000000000000000000000000000000000000000000000000000000, 12768782869800000000000000000000000000000000000000000000000000000000000000000000000000000000, 12766331162900000000000000000000000000000000000000000000000000000000000000000000000000000000, 12763885402300000000000000000000000000000000000000000000000000000000000000000000000000000000]),
  (202084769539000, [12834764471800000000000000000000000000000000000000000000000000000000000000000000000000000000, 12831227175500000000000000000000000000000000000000000000000000000000000000000000000000000000, 12829383938700000000000000000000000000000000000000000000000000000000000000000000000000000000, 12827543052800000000000000000000000000000000000000000000000000000000000000000000000000000000, 12825489935900000000000000000000000000000000000000000000000000000000000000000000000000000000, 12823263375200000000000000000000000000000000000000000000000000000000000000000000000000000000, 12820923974400000000000000000000000000000000000000000000000000000000000000000000000000000000, 12818517772800000000000000000000000000000000000000000000000000000000000000000000000000000000, 12816075371000000000000000000000000000000000000000000000000000000000000000000000000000000000, 12813616194400000000000000000000000000000000000000000000000000000000000000000000000000000000, 12811152305400000000000000000000000000000000000000000000000000000000000000000000000000000000, 12808691069600000000000000000000000000000000000000000000000000000000000000000000000000000000, 12806236889400000000000000000000000000000000000000000000000000000000000000000000000000000000, 12803792303400000000000000000000000000000000000000000000000000000000000000000000000000000000, 12801358677300000000000000000000000000000000000000000000000000000000000000000000000000000000, 12798936639100000000000000000000000000000000000000000000000000000000000000000000000000000000, 12796526354700000000000000000000000000000000000000000000000000000000000000000000000000000000, 12794127703600000000000000000000000000000000000000000000000000000000000000000000000000000000, 12791740391400000000000000000000000000000000000000000000000000000000000000000000000000000000, 12789364022600000000000000000000000000000000000000000000000000000000000000000000000000000000, 12786998147500000000000000000000000000000000000000000000000000000000000000000000000000000000, 12784642292800000000000000000000000000000000000000000000000000000000000000000000000000000000, 12782295980500000000000000000000000000000000000000000000000000000000000000000000000000000000, 12779958741000000000000000000000000000000000000000000000000000000000000000000000000000000000, 12777630119600000000000000000000000000000000000000000000000000000000000000000000000000000000, 12775309681700000000000000000000000000000000000000000000000000000000000000000000000000000000, 12772997014300000000000000000000000000000000000000000000000000000000000000000000000000000000, 12770691727500000000000000000000000000000000000000000000000000000000000000000000000000000000, 12768393454000000000000000000000000000000000000000000000000000000000000000000000000000000000, 12766101848800000000000000000000000000000000000000000000000000000000000000000000000000000000, 12763816588200000000000000000000000000000000000000000000000000000000000000000000000000000000, 12761537368500000000000000000000000000000000000000000000000000000000000000000000000000000000, 12759263905300000000000000000000000000000000000000000000000000000000000000000000000000000000, 12756995931500000000000000000000000000000000000000000000000000000000000000000000000000000000, 12754733196700000000000000000000000000000000000000000000000000000000000000000000000000000000, 12752475466000000000000000000000000000000000000000000000000000000000000000000000000000000000, 12750222518500000000000000000000000000000000000000000000000000000000000000000000000000000000, 12747974146700000000000000000000000000000000000000000000000000000000000000000000000000000000, 12745730155000000000000000000000000000000000000000000000000000000000000000000000000000000000, 12743490359500000000000000000000000000000000000000000000000000000000000000000000000000000000]),
  (204188777555000, [12801882999400000000000000000000000000000000000000000000000000000000000000000000000000000000, 12798680025500000000000000000000000000000000000000000000000000000000000000000000000000000000, 12797152783700000000000000000000000000000000000000000000000000000000000000000000000000000000, 12795617787300000000000000000000000000000000000000000000000000000000000000000000000000000000, 12793863307100000000000000000000000000000000000000000000000000000000000000000000000000000000, 12791929574100000000000000000000000000000000000000000000000000000000000000000000000000000000, 12789878059200000000000000000000000000000000000000000000000000000000000000000000000000000000, 12787755378200000000000000000000000000000000000000000000000000000000000000000000000000000000, 12785592542400000000000000000000000000000000000000000000000000000000000000000000000000000000, 12783409283700000000000000000000000000000000000000000000000000000000000000000000000000000000, 12781217899700000000000000000000000000000000000000000000000000000000000000000000000000000000, 12779025941000000000000000000000000000000000000000000000000000000000000000000000000000000000, 12776837958800000000000000000000000000000000000000000000000000000000000000000000000000000000, 12774656613900000000000000000000000000000000000000000000000000000000000000000000000000000000, 12772483375200000000000000000000000000000000000000000000000000000000000000000000000000000000, 12770318960100000000000000000000000000000000000000000000000000000000000000000000000000000000, 12768163613700000000000000000000000000000000000000000000000000000000000000000000000000000000, 12766017287300000000000000000000000000000000000000000000000000000000000000000000000000000000, 12763879752300000000000000000000000000000000000000000000000000000000000000000000000000000000, 12761750674700000000000000000000000000000000000000000000000000000000000000000000000000000000, 12759629663200000000000000000000000000000000000000000000000000000000000000000000000000000000, 12757516299200000000000000000000000000000000000000000000000000000000000000000000000000000000, 12755410157700000000000000000000000000000000000000000000000000000000000000000000000000000000, 12753310819200000000000000000000000000000000000000000000000000000000000000000000000000000000, 12751217877800000000000000000000000000000000000000000000000000000000000000000000000000000000, 12749130945100000000000000000000000000000000000000000000000000000000000000000000000000000000, 12747049653500000000000000000000000000000000000000000000000000000000000000000000000000000000, 12744973656100000000000000000000000000000000000000000000000000000000000000000000000000000000, 12742902627500000000000000000000000000000000000000000000000000000000000000000000000000000000, 12740836263000000000000000000000000000000000000000000000000000000000000000000000000000000000, 12738774277900000000000000000000000000000000000000000000000000000000000000000000000000000000, 12736716406200000000000000000000000000000000000000000000000000000000000000000000000000000000, 12734662399700000000000000000000000000000000000000000000000000000000000000000000000000000000, 12732612026700000000000000000000000000000000000000000000000000000000000000000000000000000000, 12730565070800000000000000000000000000000000000000000000000000000000000000000000000000000000, 12728521330000000000000000000000000000000000000000000000000000000000000000000000000000000000, 12726480615300000000000000000000000000000000000000000000000000000000000000000000000000000000, 12724442750000000000000000000000000000000000000000000000000000000000000000000000000000000000, 12722407568700000000000000000000000000000000000000000000000000000000000000000000000000000000, 12720374916400000000000000000000000000000000000000000000000000000000000000000000000000000000]),
  (206292785571000, [12767124911300000000000000000000000000000000000000000000000000000000000000000000000000000000, 12764224588400000000000000000000000000000000000000000000000000000000000000000000000000000000, 12762987746100000000000000000000000000000000000000000000000000000000000000000000000000000000, 12761737226300000000000000000000000000000000000000000000000000000000000000000000000000000000, 12760263094100000000000000000000000000000000000000000000000000000000000000000000000000000000, 12758606155300000000000000000000000000000000000000000000000000000000000000000000000000000000, 12756828130200000000000000000000000000000000000000000000000000000000000000000000000000000000, 12754975807500000000000000000000000000000000000000000000000000000000000000000000000000000000, 12753080349400000000000000000000000000000000000000000000000000000000000000000000000000000000, 12751161621600000000000000000000000000000000000000000000000000000000000000000000000000000000, 12749232037600000000000000000000000000000000000000000000000000000000000000000000000000000000, 12747299245800000000000000000000000000000000000000000000000000000000000000000000000000000000, 12745367880200000000000000000000000000000000000000000000000000000000000000000000000000000000, 12743440673100000000000000000000000000000000000000000000000000000000000000000000000000000000, 12741519155600000000000000000000000000000000000000000000000000000000000000000000000000000000, 12739604101400000000000000000000000000000000000000000000000000000000000000000000000000000000, 12737695807200000000000000000000000000000000000000000000000000000000000000000000000000000000, 12735794272700000000000000000000000000000000000000000000000000000000000000000000000000000000, 12733899315300000000000000000000000000000000000000000000000000000000000000000000000000000000, 12732010645300000000000000000000000000000000000000000000000000000000000000000000000000000000, 12730127913600000000000000000000000000000000000000000000000000000000000000000000000000000000, 12728250743000000000000000000000000000000000000000000000000000000000000000000000000000000000, 12726378748400000000000000000000000000000000000000000000000000000000000000000000000000000000, 12724511548900000000000000000000000000000000000000000000000000000000000000000000000000000000, 12722648776000000000000000000000000000000000000000000000000000000000000000000000000000000000, 12720790077900000000000000000000000000000000000000000000000000000000000000000000000000000000, 12718935122000000000000000000000000000000000000000000000000000000000000000000000000000000000, 12717083595700000000000000000000000000000000000000000000000000000000000000000000000000000000, 12715235206700000000000000000000000000000000000000000000000000000000000000000000000000000000, 12713389682500000000000000000000000000000000000000000000000000000000000000000000000000000000, 12711546769400000000000000000000000000000000000000000000000000000000000000000000000000000000, 12709706231600000000000000000000000000000000000000000000000000000000000000000000000000000000, 12707867850100000000000000000000000000000000000000000000000000000000000000000000000000000000, 12706031421700000000000000000000000000000000000000000000000000000000000000000000000000000000, 12704196757400000000000000000000000000000000000000000000000000000000000000000000000000000000, 12702363681900000000000000000000000000000000000000000000000000000000000000000000000000000000, 12700532032400000000000000000000000000000000000000000000000000000000000000000000000000000000, 12698701657300000000000000000000000000000000000000000000000000000000000000000000000000000000, 12696872415800000000000000000000000000000000000000000000000000000000000000000000000000000000, 12695044176600000000000000000000000000000000000000000000000000000000000000000000000000000000]),
  (208396793587000, [12731173680000000000000000000000000000000000000000000000000000000000000000000000000000000000, 12728538523800000000000000000000000000000000000000000000000000000000000000000000000000000000, 12727561070800000000000000000000000000000000000000000000000000000000000000000000000000000000, 12726568070800000000000000000000000000000000000000000000000000000000000000000000000000000000, 12725350152600000000000000000000000000000000000000000000000000000000000000000000000000000000, 12723947975700000000000000000000000000000000000000000000000000000000000000000000000000000000, 12722423051700000000000000000000000000000000000000000000000000000000000000000000000000000000, 12720822024900000000000000000000000000000000000000000000000000000000000000000000000000000000, 12719175978200000000000000000000000000000000000000000000000000000000000000000000000000000000, 12717504740400000000000000000000000000000000000000000000000000000000000000000000000000000000, 12715820712700000000000000000000000000000000000000000000000000000000000000000000000000000000, 12714131544400000000000000000000000000000000000000000000000000000000000000000000000000000000, 12712441878100000000000000000000000000000000000000000000000000000000000000000000000000000000, 12710754458900000000000000000000000000000000000000000000000000000000000000000000000000000000, 12709070834500000000000000000000000000000000000000000000000000000000000000000000000000000000, 12707391797700000000000000000000000000000000000000000000000000000000000000000000000000000000, 12705717666200000000000000000000000000000000000000000000000000000000000000000000000000000000, 12704048462500000000000000000000000000000000000000000000000000000000000000000000000000000000, 12702384028300000000000000000000000000000000000000000000000000000000000000000000000000000000, 12700724098700000000000000000000000000000000000000000000000000000000000000000000000000000000, 12699068350300000000000000000000000000000000000000000000000000000000000000000000000000000000, 12697416431700000000000000000000000000000000000000000000000000000000000000000000000000000000, 12695767983400000000000000000000000000000000000000000000000000000000000000000000000000000000, 12694122650200000000000000000000000000000000000000000000000000000000000000000000000000000000, 12692480088800000000000000000000000000000000000000000000000000000000000000000000000000000000, 12690839972400000000000000000000000000000000000000000000000000000000000000000000000000000000, 12689201992600000000000000000000000000000000000000000000000000000000000000000000000000000000, 12687565860600000000000000000000000000000000000000000000000000000000000000000000000000000000, 12685931307400000000000000000000000000000000000000000000000000000000000000000000000000000000, 12684298083000000000000000000000000000000000000000000000000000000000000000000000000000000000, 12682665955900000000000000000000000000000000000000000000000000000000000000000000000000000000, 12681034711900000000000000000000000000000000000000000000000000000000000000000000000000000000, 12679404153000000000000000000000000000000000000000000000000000000000000000000000000000000000, 12677774096300000000000000000000000000000000000000000000000000000000000000000000000000000000, 12676144372900000000000000000000000000000000000000000000000000000000000000000000000000000000, 12674514827000000000000000000000000000000000000000000000000000000000000000000000000000000000, 12672885314600000000000000000000000000000000000000000000000000000000000000000000000000000000, 12671255702900000000000000000000000000000000000000000000000000000000000000000000000000000000, 12669625869200000000000000000000000000000000000000000000000000000000000000000000000000000000, 12667995699900000000000000000000000000000000000000000000000000000000000000000000000000000000])]
noncomputable def ttSpec4 : List (Nat × List Nat) := [
  (210500801603000, [12694630886700000000000000000000000000000000000000000000000000000000000000000000000000000000, 12692235739600000000000000000000000000000000000000000000000000000000000000000000000000000000, 12691490261200000000000000000000000000000000000000000000000000000000000000000000000000000000, 12690727598700000000000000000000000000000000000000000000000000000000000000000000000000000000, 12689739529500000000000000000000000000000000000000000000000000000000000000000000000000000000, 12688566795100000000000000000000000000000000000000000000000000000000000000000000000000000000, 12687270742400000000000000000000000000000000000000000000000000000000000000000000000000000000, 12685897817700000000000000000000000000000000000000000000000000000000000000000000000000000000, 12684478935600000000000000000000000000000000000000000000000000000000000000000000000000000000, 12683033796700000000000000000000000000000000000000000000000000000000000000000000000000000000, 12681574707900000000000000000000000000000000000000000000000000000000000000000000000000000000, 12680109250400000000000000000000000000000000000000000000000000000000000000000000000000000000, 12678642018200000000000000000000000000000000000000000000000000000000000000000000000000000000, 12677175722000000000000000000000000000000000000000000000000000000000000000000000000000000000, 12675711886900000000000000000000000000000000000000000000000000000000000000000000000000000000, 12674251291600000000000000000000000000000000000000000000000000000000000000000000000000000000, 12672794247200000000000000000000000000000000000000000000000000000000000000000000000000000000, 12671340774900000000000000000000000000000000000000000000000000000000000000000000000000000000, 12669890719100000000000000000000000000000000000000000000000000000000000000000000000000000000, 12668443821100000000000000000000000000000000000000000000000000000000000000000000000000000000, 12666999765600000000000000000000000000000000000000000000000000000000000000000000000000000000, 12665558211200000000000000000000000000000000000000000000000000000000000000000000000000000000, 12664118809700000000000000000000000000000000000000000000000000000000000000000000000000000000, 12662681217600000000000000000000000000000000000000000000000000000000000000000000000000000000, 12661245104000000000000000000000000000000000000000000000000000000000000000000000000000000000, 12659810154500000000000000000000000000000000000000000000000000000000000000000000000000000000, 12658376073500000000000000000000000000000000000000000000000000000000000000000000000000000000, 12656942585000000000000000000000000000000000000000000000000000000000000000000000000000000000, 12655509432600000000000000000000000000000000000000000000000000000000000000000000000000000000, 12654076378800000000000000000000000000000000000000000000000000000000000000000000000000000000, 12652643204500000000000000000000000000000000000000000000000000000000000000000000000000000000, 12651209707800000000000000000000000000000000000000000000000000000000000000000000000000000000, 12649775702600000000000000000000000000000000000000000000000000000000000000000000000000000000, 12648341018300000000000000000000000000000000000000000000000000000000000000000000000000000000, 12646905497600000000000000000000000000000000000000000000000000000000000000000000000000000000, 12645468996300000000000000000000000000000000000000000000000000000000000000000000000000000000, 12644031382000000000000000000000000000000000000000000000000000000000000000000000000000000000, 12642592533100000000000000000000000000000000000000000000000000000000000000000000000000000000, 12641152338100000000000000000000000000000000000000000000000000000000000000000000000000000000, 12639710694600000000000000000000000000000000000000000000000000000000000000000000000000000000]),
  (212604809619000, [12658061069600000000000000000000000000000000000000000000000000000000000000000000000000000000, 12655878719600000000000000000000000000000000000000000000000000000000000000000000000000000000, 12655337564900000000000000000000000000000000000000000000000000000000000000000000000000000000, 12654777299700000000000000000000000000000000000000000000000000000000000000000000000000000000, 12653991380800000000000000000000000000000000000000000000000000000000000000000000000000000000, 12653020935100000000000000000000000000000000000000000000000000000000000000000000000000000000, 12651927270800000000000000000000000000000000000000000000000000000000000000000000000000000000, 12650756674600000000000000000000000000000000000000000000000000000000000000000000000000000000, 12649539891200000000000000000000000000000000000000000000000000000000000000000000000000000000, 12648296473900000000000000000000000000000000000000000000000000000000000000000000000000000000, 12647038609100000000000000000000000000000000000000000000000000000000000000000000000000000000, 12645773781600000000000000000000000000000000000000000000000000000000000000000000000000000000, 12644506508400000000000000000000000000000000000000000000000000000000000000000000000000000000, 12643239439500000000000000000000000000000000000000000000000000000000000000000000000000000000, 12641974052300000000000000000000000000000000000000000000000000000000000000000000000000000000, 12640711088900000000000000000000000000000000000000000000000000000000000000000000000000000000, 12639450832700000000000000000000000000000000000000000000000000000000000000000000000000000000, 12638193284000000000000000000000000000000000000000000000000000000000000000000000000000000000, 12636938272000000000000000000000000000000000000000000000000000000000000000000000000000000000, 12635685527200000000000000000000000000000000000000000000000000000000000000000000000000000000, 12634434726800000000000000000000000000000000000000000000000000000000000000000000000000000000, 12633185524400000000000000000000000000000000000000000000000000000000000000000000000000000000, 12631937568500000000000000000000000000000000000000000000000000000000000000000000000000000000, 12630690514300000000000000000000000000000000000000000000000000000000000000000000000000000000, 12629444030400000000000000000000000000000000000000000000000000000000000000000000000000000000, 12628197802700000000000000000000000000000000000000000000000000000000000000000000000000000000, 12626951536800000000000000000000000000000000000000000000000000000000000000000000000000000000, 12625704958100000000000000000000000000000000000000000000000000000000000000000000000000000000, 12624457812300000000000000000000000000000000000000000000000000000000000000000000000000000000, 12623209864400000000000000000000000000000000000000000000000000000000000000000000000000000000, 12621960897800000000000000000000000000000000000000000000000000000000000000000000000000000000, 12620710713600000000000000000000000000000000000000000000000000000000000000000000000000000000, 12619459129100000000000000000000000000000000000000000000000000000000000000000000000000000000, 12618205976600000000000000000000000000000000000000000000000000000000000000000000000000000000, 12616951102700000000000000000000000000000000000000000000000000000000000000000000000000000000, 12615694366900000000000000000000000000000000000000000000000000000000000000000000000000000000, 12614435640600000000000000000000000000000000000000000000000000000000000000000000000000000000, 12613174806300000000000000000000000000000000000000000000000000000000000000000000000000000000, 12611911756600000000000000000000000000000000000000000000000000000000000000000000000000000000, 12610646393400000000000000000000000000000000000000000000000000000000000000000000000000000000]),
  (214708817635000, [12621984840700000000000000000000000000000000000000000000000000000000000000000000000000000000, 12619976882800000000000000000000000000000000000000000000000000000000000000000000000000000000, 12619606835700000000000000000000000000000000000000000000000000000000000000000000000000000000, 12619218367800000000000000000000000000000000000000000000000000000000000000000000000000000000, 12618605413000000000000000000000000000000000000000000000000000000000000000000000000000000000, 12617808898000000000000000000000000000000000000000000000000000000000000000000000000000000000, 12616889869700000000000000000000000000000000000000000000000000000000000000000000000000000000, 12615894392900000000000000000000000000000000000000000000000000000000000000000000000000000000, 12614853033900000000000000000000000000000000000000000000000000000000000000000000000000000000, 12613785202200000000000000000000000000000000000000000000000000000000000000000000000000000000, 12612702966500000000000000000000000000000000000000000000000000000000000000000000000000000000, 12611613713000000000000000000000000000000000000000000000000000000000000000000000000000000000, 12610521875500000000000000000000000000000000000000000000000000000000000000000000000000000000, 12609430034800000000000000000000000000000000000000000000000000000000000000000000000000000000, 12608339609800000000000000000000000000000000000000000000000000000000000000000000000000000000, 12607251293900000000000000000000000000000000000000000000000000000000000000000000000000000000, 12606165329800000000000000000000000000000000000000000000000000000000000000000000000000000000, 12605081683700000000000000000000000000000000000000000000000000000000000000000000000000000000, 12604000156200000000000000000000000000000000000000000000000000000000000000000000000000000000, 12602920453600000000000000000000000000000000000000000000000000000000000000000000000000000000, 12601842232200000000000000000000000000000000000000000000000000000000000000000000000000000000, 12600765128000000000000000000000000000000000000000000000000000000000000000000000000000000000, 12599688773800000000000000000000000000000000000000000000000000000000000000000000000000000000, 12598612811100000000000000000000000000000000000000000000000000000000000000000000000000000000, 12597536896300000000000000000000000000000000000000000000000000000000000000000000000000000000, 12596460704700000000000000000000000000000000000000000000000000000000000000000000000000000000, 12595383932000000000000000000000000000000000000000000000000000000000000000000000000000000000, 12594306295000000000000000000000000000000000000000000000000000000000000000000000000000000000, 12593227531400000000000000000000000000000000000000000000000000000000000000000000000000000000, 12592147399200000000000000000000000000000000000000000000000000000000000000000000000000000000, 12591065675400000000000000000000000000000000000000000000000000000000000000000000000000000000, 12589982155100000000000000000000000000000000000000000000000000000000000000000000000000000000, 12588896650600000000000000000000000000000000000000000000000000000000000000000000000000000000, 12587808989400000000000000000000000000000000000000000000000000000000000000000000000000000000, 12586719014000000000000000000000000000000000000000000000000000000000000000000000000000000000, 12585626580200000000000000000000000000000000000000000000000000000000000000000000000000000000, 12584531556000000000000000000000000000000000000000000000000000000000000000000000000000000000, 12583433821100000000000000000000000000000000000000000000000000000000000000000000000000000000, 12582333265600000000000000000000000000000000000000000000000000000000000000000000000000000000, 12581229789300000000000000000000000000000000000000000000000000000000000000000000000000000000]),
  (216812825651000, [12586845512000000000000000000000000000000000000000000000000000000000000000000000000000000000, 12584970435700000000000000000000000000000000000000000000000000000000000000000000000000000000, 12584735685400000000000000000000000000000000000000000000000000000000000000000000000000000000, 12584487152700000000000000000000000000000000000000000000000000000000000000000000000000000000, 12584017241400000000000000000000000000000000000000000000000000000000000000000000000000000000, 12583365736400000000000000000000000000000000000000000000000000000000000000000000000000000000, 12582593060500000000000000000000000000000000000000000000000000000000000000000000000000000000, 12581744928900000000000000000000000000000000000000000000000000000000000000000000000000000000, 12580851689000000000000000000000000000000000000000000000000000000000000000000000000000000000, 12579932595100000000000000000000000000000000000000000000000000000000000000000000000000000000, 12578999595700000000000000000000000000000000000000000000000000000000000000000000000000000000, 12578059978900000000000000000000000000000000000000000000000000000000000000000000000000000000, 12577118096200000000000000000000000000000000000000000000000000000000000000000000000000000000, 12576176457600000000000000000000000000000000000000000000000000000000000000000000000000000000, 12575236420900000000000000000000000000000000000000000000000000000000000000000000000000000000, 12574298626000000000000000000000000000000000000000000000000000000000000000000000000000000000, 12573363268300000000000000000000000000000000000000000000000000000000000000000000000000000000, 12572430272300000000000000000000000000000000000000000000000000000000000000000000000000000000, 12571499401300000000000000000000000000000000000000000000000000000000000000000000000000000000, 12570570327700000000000000000000000000000000000000000000000000000000000000000000000000000000, 12569642677500000000000000000000000000000000000000000000000000000000000000000000000000000000, 12568716058500000000000000000000000000000000000000000000000000000000000000000000000000000000, 12567790078300000000000000000000000000000000000000000000000000000000000000000000000000000000, 12566864354600000000000000000000000000000000000000000000000000000000000000000000000000000000, 12565938522000000000000000000000000000000000000000000000000000000000000000000000000000000000, 12565012235500000000000000000000000000000000000000000000000000000000000000000000000000000000, 12564085172200000000000000000000000000000000000000000000000000000000000000000000000000000000, 12563157031100000000000000000000000000000000000000000000000000000000000000000000000000000000, 12562227533900000000000000000000000000000000000000000000000000000000000000000000000000000000, 12561296422900000000000000000000000000000000000000000000000000000000000000000000000000000000, 12560363461100000000000000000000000000000000000000000000000000000000000000000000000000000000, 12559428430200000000000000000000000000000000000000000000000000000000000000000000000000000000, 12558491130000000000000000000000000000000000000000000000000000000000000000000000000000000000, 12557551376300000000000000000000000000000000000000000000000000000000000000000000000000000000, 12556609000800000000000000000000000000000000000000000000000000000000000000000000000000000000, 12555663848800000000000000000000000000000000000000000000000000000000000000000000000000000000, 12554715779000000000000000000000000000000000000000000000000000000000000000000000000000000000, 12553764662000000000000000000000000000000000000000000000000000000000000000000000000000000000, 12552810379600000000000000000000000000000000000000000000000000000000000000000000000000000000, 12551852823900000000000000000000000000000000000000000000000000000000000000000000000000000000]),
  (218916833667000, [12552998815000000000000000000000000000000000000000000000000000000000000000000000000000000000, 12551221871200000000000000000000000000000000000000000000000000000000000000000000000000000000, 12551091397200000000000000000000000000000000000000000000000000000000000000000000000000000000, 12550952845600000000000000000000000000000000000000000000000000000000000000000000000000000000, 12550596739000000000000000000000000000000000000000000000000000000000000000000000000000000000, 12550061643700000000000000000000000000000000000000000000000000000000000000000000000000000000, 12549407290700000000000000000000000000000000000000000000000000000000000000000000000000000000, 12548678980900000000000000000000000000000000000000000000000000000000000000000000000000000000, 12547906790400000000000000000000000000000000000000000000000000000000000000000000000000000000, 12547109783400000000000000000000000000000000000000000000000000000000000000000000000000000000, 12546299767800000000000000000000000000000000000000000000000000000000000000000000000000000000, 12545483923800000000000000000000000000000000000000000000000000000000000000000000000000000000, 12544666516000000000000000000000000000000000000000000000000000000000000000000000000000000000, 12543849982200000000000000000000000000000000000000000000000000000000000000000000000000000000, 12543035618200000000000000000000000000000000000000000000000000000000000000000000000000000000, 12542224008700000000000000000000000000000000000000000000000000000000000000000000000000000000, 12541415299400000000000000000000000000000000000000000000000000000000000000000000000000000000, 12540609369100000000000000000000000000000000000000000000000000000000000000000000000000000000, 12539805938500000000000000000000000000000000000000000000000000000000000000000000000000000000, 12539004640600000000000000000000000000000000000000000000000000000000000000000000000000000000, 12538205064300000000000000000000000000000000000000000000000000000000000000000000000000000000, 12537406782600000000000000000000000000000000000000000000000000000000000000000000000000000000, 12536609370300000000000000000000000000000000000000000000000000000000000000000000000000000000, 12535812414400000000000000000000000000000000000000000000000000000000000000000000000000000000, 12535015520700000000000000000000000000000000000000000000000000000000000000000000000000000000, 12534218316700000000000000000000000000000000000000000000000000000000000000000000000000000000, 12533420453700000000000000000000000000000000000000000000000000000000000000000000000000000000, 12532621606800000000000000000000000000000000000000000000000000000000000000000000000000000000, 12531821474300000000000000000000000000000000000000000000000000000000000000000000000000000000, 12531019777400000000000000000000000000000000000000000000000000000000000000000000000000000000, 12530216258300000000000000000000000000000000000000000000000000000000000000000000000000000000, 12529410679800000000000000000000000000000000000000000000000000000000000000000000000000000000, 12528602823000000000000000000000000000000000000000000000000000000000000000000000000000000000, 12527792486800000000000000000000000000000000000000000000000000000000000000000000000000000000, 12526979486300000000000000000000000000000000000000000000000000000000000000000000000000000000, 12526163651700000000000000000000000000000000000000000000000000000000000000000000000000000000, 12525344826800000000000000000000000000000000000000000000000000000000000000000000000000000000, 12524522868500000000000000000000000000000000000000000000000000000000000000000000000000000000, 12523697645300000000000000000000000000000000000000000000000000000000000000000000000000000000, 12522869036900000000000000000000000000000000000000000000000000000000000000000000000000000000]),
  (221020841683000, [12520721044900000000000000000000000000000000000000000000000000000000000000000000000000000000, 12519024316900000000000000000000000000000000000000000000000000000000000000000000000000000000, 12518973918800000000000000000000000000000000000000000000000000000000000000000000000000000000, 12518918451600000000000000000000000000000000000000000000000000000000000000000000000000000000, 12518648674900000000000000000000000000000000000000000000000000000000000000000000000000000000, 12518202730900000000000000000000000000000000000000000000000000000000000000000000000000000000, 12517639864300000000000000000000000000000000000000000000000000000000000000000000000000000000, 12517004970900000000000000000000000000000000000000000000000000000000000000000000000000000000, 12516327818300000000000000000000000000000000000000000000000000000000000000000000000000000000, 12515627244400000000000000000000000000000000000000000000000000000000000000000000000000000000, 12514914892000000000000000000000000000000000000000000000000000000000000000000000000000000000, 12514197819200000000000000000000000000000000000000000000000000000000000000000000000000000000, 12513480197400000000000000000000000000000000000000000000000000000000000000000000000000000000, 12512764389500000000000000000000000000000000000000000000000000000000000000000000000000000000, 12512051627900000000000000000000000000000000000000000000000000000000000000000000000000000000, 12511342441800000000000000000000000000000000000000000000000000000000000000000000000000000000, 12510636925600000000000000000000000000000000000000000000000000000000000000000000000000000000, 12509934910400000000000000000000000000000000000000000000000000000000000000000000000000000000, 12509236072200000000000000000000000000000000000000000000000000000000000000000000000000000000, 12508540000800000000000000000000000000000000000000000000000000000000000000000000000000000000, 12507846244600000000000000000000000000000000000000000000000000000000000000000000000000000000, 12507154337500000000000000000000000000000000000000000000000000000000000000000000000000000000, 12506463817500000000000000000000000000000000000000000000000000000000000000000000000000000000, 12505774236300000000000000000000000000000000000000000000000000000000000000000000000000000000, 12505085166200000000000000000000000000000000000000000000000000000000000000000000000000000000, 12504396203000000000000000000000000000000000000000000000000000000000000000000000000000000000, 12503706967700000000000000000000000000000000000000000000000000000000000000000000000000000000, 12503017106700000000000000000000000000000000000000000000000000000000000000000000000000000000, 12502326291300000000000000000000000000000000000000000000000000000000000000000000000000000000, 12501634216400000000000000000000000000000000000000000000000000000000000000000000000000000000, 12500940600100000000000000000000000000000000000000000000000000000000000000000000000000000000, 12500245181300000000000000000000000000000000000000000000000000000000000000000000000000000000, 12499547719300000000000000000000000000000000000000000000000000000000000000000000000000000000, 12498847991700000000000000000000000000000000000000000000000000000000000000000000000000000000, 12498145793400000000000000000000000000000000000000000000000000000000000000000000000000000000, 12497440935300000000000000000000000000000000000000000000000000000000000000000000000000000000, 12496733243100000000000000000000000000000000000000000000000000000000000000000000000000000000, 12496022556100000000000000000000000000000000000000000000000000000000000000000000000000000000, 12495308726100000000000000000000000000000000000000000000000000000000000000000000000000000000, 12494591617000000000000000000000000000000000000000000000000000000000000000000000000000000000]),
  (223124849699000, [12490247849700000000000000000000000000000000000000000000000000000000000000000000000000000000, 12488614630300000000000000000000000000000000000000000000000000000000000000000000000000000000, 12488621439900000000000000000000000000000000000000000000000000000000000000000000000000000000, 12488624394900000000000000000000000000000000000000000000000000000000000000000000000000000000, 12488415946300000000000000000000000000000000000000000000000000000000000000000000000000000000, 12488034237400000000000000000000000000000000000000000000000000000000000000000000000000000000, 12487538140500000000000000000000000000000000000000000000000000000000000000000000000000000000, 12486972174500000000000000000000000000000000000000000000000000000000000000000000000000000000, 12486365806400000000000000000000000000000000000000000000000000000000000000000000000000000000, 12485737649800000000000000000000000000000000000000000000000000000000000000000000000000000000, 12485099183600000000000000000000000000000000000000000000000000000000000000000000000000000000, 12484457344300000000000000000000000000000000000000000000000000000000000000000000000000000000, 12483816210100000000000000000000000000000000000000000000000000000000000000000000000000000000, 12483178068600000000000000000000000000000000000000000000000000000000000000000000000000000000, 12482544088600000000000000000000000000000000000000000000000000000000000000000000000000000000, 12481914742200000000000000000000000000000000000000000000000000000000000000000000000000000000, 12481290072000000000000000000000000000000000000000000000000000000000000000000000000000000000, 12480669860100000000000000000000000000000000000000000000000000000000000000000000000000000000, 12480053735700000000000000000000000000000000000000000000000000000000000000000000000000000000, 12479441244600000000000000000000000000000000000000000000000000000000000000000000000000000000, 12478831892300000000000000000000000000000000000000000000000000000000000000000000000000000000, 12478225172400000000000000000000000000000000000000000000000000000000000000000000000000000000, 12477620583400000000000000000000000000000000000000000000000000000000000000000000000000000000, 12477017640200000000000000000000000000000000000000000000000000000000000000000000000000000000, 12476415879400000000000000000000000000000000000000000000000000000000000000000000000000000000, 12475814862800000000000000000000000000000000000000000000000000000000000000000000000000000000, 12475214179100000000000000000000000000000000000000000000000000000000000000000000000000000000, 12474613443900000000000000000000000000000000000000000000000000000000000000000000000000000000, 12474012298900000000000000000000000000000000000000000000000000000000000000000000000000000000, 12473410411000000000000000000000000000000000000000000000000000000000000000000000000000000000, 12472807471400000000000000000000000000000000000000000000000000000000000000000000000000000000, 12472203193400000000000000000000000000000000000000000000000000000000000000000000000000000000, 12471597311800000000000000000000000000000000000000000000000000000000000000000000000000000000, 12470989580800000000000000000000000000000000000000000000000000000000000000000000000000000000, 12470379772800000000000000000000000000000000000000000000000000000000000000000000000000000000, 12469767677300000000000000000000000000000000000000000000000000000000000000000000000000000000, 12469153099400000000000000000000000000000000000000000000000000000000000000000000000000000000, 12468535858800000000000000000000000000000000000000000000000000000000000000000000000000000000, 12467915788300000000000000000000000000000000000000000000000000000000000000000000000000000000, 12467292733600000000000000000000000000000000000000000000000000000000000000000000000000000000]),
  (225228857715000, [12461775345300000000000000000000000000000000000000000000000000000000000000000000000000000000, 12460176071500000000000000000000000000000000000000000000000000000000000000000000000000000000, 12460215748600000000000000000000000000000000000000000000000000000000000000000000000000000000, 12460254665000000000000000000000000000000000000000000000000000000000000000000000000000000000, 12460085567700000000000000000000000000000000000000000000000000000000000000000000000000000000, 12459746105400000000000000000000000000000000000000000000000000000000000000000000000000000000, 12459294696100000000000000000000000000000000000000000000000000000000000000000000000000000000, 12458775538600000000000000000000000000000000000000000000000000000000000000000000000000000000, 12458217876600000000000000000000000000000000000000000000000000000000000000000000000000000000, 12457640160800000000000000000000000000000000000000000000000000000000000000000000000000000000, 12457053745300000000000000000000000000000000000000000000000000000000000000000000000000000000, 12456465466200000000000000000000000000000000000000000000000000000000000000000000000000000000, 12455879318200000000000000000000000000000000000000000000000000000000000000000000000000000000, 12455297517100000000000000000000000000000000000000000000000000000000000000000000000000000000, 12454721167500000000000000000000000000000000000000000000000000000000000000000000000000000000, 12454150683300000000000000000000000000000000000000000000000000000000000000000000000000000000, 12453586053100000000000000000000000000000000000000000000000000000000000000000000000000000000, 12453027008500000000000000000000000000000000000000000000000000000000000000000000000000000000, 12452473131000000000000000000000000000000000000000000000000000000000000000000000000000000000, 12451923921100000000000000000000000000000000000000000000000000000000000000000000000000000000, 12451378841100000000000000000000000000000000000000000000000000000000000000000000000000000000, 12450837343400000000000000000000000000000000000000000000000000000000000000000000000000000000, 12450298887800000000000000000000000000000000000000000000000000000000000000000000000000000000, 12449762951200000000000000000000000000000000000000000000000000000000000000000000000000000000, 12449229034800000000000000000000000000000000000000000000000000000000000000000000000000000000, 12448696666200000000000000000000000000000000000000000000000000000000000000000000000000000000, 12448165401500000000000000000000000000000000000000000000000000000000000000000000000000000000, 12447634825000000000000000000000000000000000000000000000000000000000000000000000000000000000, 12447104548600000000000000000000000000000000000000000000000000000000000000000000000000000000, 12446574210800000000000000000000000000000000000000000000000000000000000000000000000000000000, 12446043475000000000000000000000000000000000000000000000000000000000000000000000000000000000, 12445512028700000000000000000000000000000000000000000000000000000000000000000000000000000000, 12444979581100000000000000000000000000000000000000000000000000000000000000000000000000000000, 12444445862300000000000000000000000000000000000000000000000000000000000000000000000000000000, 12443910621600000000000000000000000000000000000000000000000000000000000000000000000000000000, 12443373626000000000000000000000000000000000000000000000000000000000000000000000000000000000, 12442834659200000000000000000000000000000000000000000000000000000000000000000000000000000000, 12442293520000000000000000000000000000000000000000000000000000000000000000000000000000000000, 12441750021500000000000000000000000000000000000000000000000000000000000000000000000000000000, 12441203990000000000000000000000000000000000000000000000000000000000000000000000000000000000]),
  (227332865731000, [12435433222400000000000000000000000000000000000000000000000000000000000000000000000000000000, 12433839146100000000000000000000000000000000000000000000000000000000000000000000000000000000, 12433889755000000000000000000000000000000000000000000000000000000000000000000000000000000000, 12433945186400000000000000000000000000000000000000000000000000000000000000000000000000000000, 12433796359200000000000000000000000000000000000000000000000000000000000000000000000000000000, 12433479818800000000000000000000000000000000000000000000000000000000000000000000000000000000, 12433053492300000000000000000000000000000000000000000000000000000000000000000000000000000000, 12432561371900000000000000000000000000000000000000000000000000000000000000000000000000000000, 12432032595800000000000000000000000000000000000000000000000000000000000000000000000000000000, 12431485536200000000000000000000000000000000000000000000000000000000000000000000000000000000, 12430931472500000000000000000000000000000000000000000000000000000000000000000000000000000000, 12430377166200000000000000000000000000000000000000000000000000000000000000000000000000000000, 12429826538700000000000000000000000000000000000000000000000000000000000000000000000000000000, 12429281735300000000000000000000000000000000000000000000000000000000000000000000000000000000, 12428743794800000000000000000000000000000000000000000000000000000000000000000000000000000000, 12428213069600000000000000000000000000000000000000000000000000000000000000000000000000000000, 12427689491400000000000000000000000000000000000000000000000000000000000000000000000000000000, 12427172739000000000000000000000000000000000000000000000000000000000000000000000000000000000, 12426662344800000000000000000000000000000000000000000000000000000000000000000000000000000000, 12426157763300000000000000000000000000000000000000000000000000000000000000000000000000000000, 12425658413900000000000000000000000000000000000000000000000000000000000000000000000000000000, 12425163708500000000000000000000000000000000000000000000000000000000000000000000000000000000, 12424673068300000000000000000000000000000000000000000000000000000000000000000000000000000000, 12424185934100000000000000000000000000000000000000000000000000000000000000000000000000000000, 12423701772400000000000000000000000000000000000000000000000000000000000000000000000000000000, 12423220077800000000000000000000000000000000000000000000000000000000000000000000000000000000, 12422740374900000000000000000000000000000000000000000000000000000000000000000000000000000000, 12422262217700000000000000000000000000000000000000000000000000000000000000000000000000000000, 12421785189300000000000000000000000000000000000000000000000000000000000000000000000000000000, 12421308900400000000000000000000000000000000000000000000000000000000000000000000000000000000, 12420832987800000000000000000000000000000000000000000000000000000000000000000000000000000000, 12420357113100000000000000000000000000000000000000000000000000000000000000000000000000000000, 12419880961200000000000000000000000000000000000000000000000000000000000000000000000000000000, 12419404238100000000000000000000000000000000000000000000000000000000000000000000000000000000, 12418926670300000000000000000000000000000000000000000000000000000000000000000000000000000000, 12418448002700000000000000000000000000000000000000000000000000000000000000000000000000000000, 12417967997500000000000000000000000000000000000000000000000000000000000000000000000000000000, 12417486432900000000000000000000000000000000000000000000000000000000000000000000000000000000, 12417003102000000000000000000000000000000000000000000000000000000000000000000000000000000000, 12416517811900000000000000000000000000000000000000000000000000000000000000000000000000000000]),
  (229436873747000, [12411300870200000000000000000000000000000000000000000000000000000000000000000000000000000000, 12409692480400000000000000000000000000000000000000000000000000000000000000000000000000000000, 12409736888000000000000000000000000000000000000000000000000000000000000000000000000000000000, 12409791785500000000000000000000000000000000000000000000000000000000000000000000000000000000, 12409645900100000000000000000000000000000000000000000000000000000000000000000000000000000000, 12409334725900000000000000000000000000000000000000000000000000000000000000000000000000000000, 12408915811700000000000000000000000000000000000000000000000000000000000000000000000000000000, 12408433035900000000000000000000000000000000000000000000000000000000000000000000000000000000, 12407915491800000000000000000000000000000000000000000000000000000000000000000000000000000000, 12407381506700000000000000000000000000000000000000000000000000000000000000000000000000000000, 12406842300000000000000000000000000000000000000000000000000000000000000000000000000000000000, 12406304562000000000000000000000000000000000000000000000000000000000000000000000000000000000, 12405772137400000000000000000000000000000000000000000000000000000000000000000000000000000000, 12405247096000000000000000000000000000000000000000000000000000000000000000000000000000000000, 12404730404300000000000000000000000000000000000000000000000000000000000000000000000000000000, 12404222348600000000000000000000000000000000000000000000000000000000000000000000000000000000, 12403722799600000000000000000000000000000000000000000000000000000000000000000000000000000000, 12403231381000000000000000000000000000000000000000000000000000000000000000000000000000000000, 12402747574800000000000000000000000000000000000000000000000000000000000000000000000000000000, 12402270789400000000000000000000000000000000000000000000000000000000000000000000000000000000, 12401800401700000000000000000000000000000000000000000000000000000000000000000000000000000000, 12401335784000000000000000000000000000000000000000000000000000000000000000000000000000000000, 12400876320800000000000000000000000000000000000000000000000000000000000000000000000000000000, 12400421418200000000000000000000000000000000000000000000000000000000000000000000000000000000, 12399970509800000000000000000000000000000000000000000000000000000000000000000000000000000000, 12399523059100000000000000000000000000000000000000000000000000000000000000000000000000000000, 12399078561200000000000000000000000000000000000000000000000000000000000000000000000000000000, 12398636541600000000000000000000000000000000000000000000000000000000000000000000000000000000, 12398196556200000000000000000000000000000000000000000000000000000000000000000000000000000000, 12397758189700000000000000000000000000000000000000000000000000000000000000000000000000000000, 12397321053700000000000000000000000000000000000000000000000000000000000000000000000000000000, 12396884785800000000000000000000000000000000000000000000000000000000000000000000000000000000, 12396449047300000000000000000000000000000000000000000000000000000000000000000000000000000000, 12396013521800000000000000000000000000000000000000000000000000000000000000000000000000000000, 12395577914000000000000000000000000000000000000000000000000000000000000000000000000000000000, 12395141947600000000000000000000000000000000000000000000000000000000000000000000000000000000, 12394705364400000000000000000000000000000000000000000000000000000000000000000000000000000000, 12394267922900000000000000000000000000000000000000000000000000000000000000000000000000000000, 12393829397000000000000000000000000000000000000000000000000000000000000000000000000000000000, 12393389575200000000000000000000000000000000000000000000000000000000000000000000000000000000]),
  (231540881764000, [12389426711900000000000000000000000000000000000000000000000000000000000000000000000000000000, 12387793567000000000000000000000000000000000000000000000000000000000000000000000000000000000, 12387816740400000000000000000000000000000000000000000000000000000000000000000000000000000000, 12387854559000000000000000000000000000000000000000000000000000000000000000000000000000000000, 12387694976700000000000000000000000000000000000000000000000000000000000000000000000000000000, 12387372839100000000000000000000000000000000000000000000000000000000000000000000000000000000, 12386945349000000000000000000000000000000000000000000000000000000000000000000000000000000000, 12386456204500000000000000000000000000000000000000000000000000000000000000000000000000000000, 12385934379900000000000000000000000000000000000000000000000000000000000000000000000000000000, 12385398098900000000000000000000000000000000000000000000000000000000000000000000000000000000, 12384858480200000000000000000000000000000000000000000000000000000000000000000000000000000000, 12384322114400000000000000000000000000000000000000000000000000000000000000000000000000000000, 12383792751500000000000000000000000000000000000000000000000000000000000000000000000000000000, 12383272372900000000000000000000000000000000000000000000000000000000000000000000000000000000, 12382761865300000000000000000000000000000000000000000000000000000000000000000000000000000000, 12382261443100000000000000000000000000000000000000000000000000000000000000000000000000000000, 12381770913200000000000000000000000000000000000000000000000000000000000000000000000000000000, 12381289842400000000000000000000000000000000000000000000000000000000000000000000000000000000, 12380817661900000000000000000000000000000000000000000000000000000000000000000000000000000000, 12380353734400000000000000000000000000000000000000000000000000000000000000000000000000000000, 12379897395200000000000000000000000000000000000000000000000000000000000000000000000000000000, 12379447978600000000000000000000000000000000000000000000000000000000000000000000000000000000, 12379004834000000000000000000000000000000000000000000000000000000000000000000000000000000000, 12378567334700000000000000000000000000000000000000000000000000000000000000000000000000000000, 12378134883600000000000000000000000000000000000000000000000000000000000000000000000000000000, 12377706915400000000000000000000000000000000000000000000000000000000000000000000000000000000, 12377282897400000000000000000000000000000000000000000000000000000000000000000000000000000000, 12376862329100000000000000000000000000000000000000000000000000000000000000000000000000000000, 12376444741400000000000000000000000000000000000000000000000000000000000000000000000000000000, 12376029694700000000000000000000000000000000000000000000000000000000000000000000000000000000, 12375616777700000000000000000000000000000000000000000000000000000000000000000000000000000000, 12375205605600000000000000000000000000000000000000000000000000000000000000000000000000000000, 12374795818000000000000000000000000000000000000000000000000000000000000000000000000000000000, 12374387078000000000000000000000000000000000000000000000000000000000000000000000000000000000, 12373979069800000000000000000000000000000000000000000000000000000000000000000000000000000000, 12373571497800000000000000000000000000000000000000000000000000000000000000000000000000000000, 12373164084800000000000000000000000000000000000000000000000000000000000000000000000000000000, 12372756570800000000000000000000000000000000000000000000000000000000000000000000000000000000, 12372348711900000000000000000000000000000000000000000000000000000000000000000000000000000000, 12371940279000000000000000000000000000000000000000000000000000000000000000000000000000000000]),
  (233644889780000, [12369839081200000000000000000000000000000000000000000000000000000000000000000000000000000000, 12368168780600000000000000000000000000000000000000000000000000000000000000000000000000000000, 12368154486200000000000000000000000000000000000000000000000000000000000000000000000000000000, 12368159032400000000000000000000000000000000000000000000000000000000000000000000000000000000, 12367970416100000000000000000000000000000000000000000000000000000000000000000000000000000000, 12367622814200000000000000000000000000000000000000000000000000000000000000000000000000000000, 12367172863300000000000000000000000000000000000000000000000000000000000000000000000000000000, 12366663864600000000000000000000000000000000000000000000000000000000000000000000000000000000, 12366124512400000000000000000000000000000000000000000000000000000000000000000000000000000000, 12365572821600000000000000000000000000000000000000000000000000000000000000000000000000000000, 12365019745500000000000000000000000000000000000000000000000000000000000000000000000000000000, 12364471738100000000000000000000000000000000000000000000000000000000000000000000000000000000, 12363932433900000000000000000000000000000000000000000000000000000000000000000000000000000000, 12363403715400000000000000000000000000000000000000000000000000000000000000000000000000000000, 12362886383800000000000000000000000000000000000000000000000000000000000000000000000000000000, 12362380579200000000000000000000000000000000000000000000000000000000000000000000000000000000, 12361886044100000000000000000000000000000000000000000000000000000000000000000000000000000000, 12361402288700000000000000000000000000000000000000000000000000000000000000000000000000000000, 12360928694200000000000000000000000000000000000000000000000000000000000000000000000000000000, 12360464578600000000000000000000000000000000000000000000000000000000000000000000000000000000, 12360009237400000000000000000000000000000000000000000000000000000000000000000000000000000000, 12359561968400000000000000000000000000000000000000000000000000000000000000000000000000000000, 12359122087700000000000000000000000000000000000000000000000000000000000000000000000000000000, 12358688937900000000000000000000000000000000000000000000000000000000000000000000000000000000, 12358261893100000000000000000000000000000000000000000000000000000000000000000000000000000000, 12357840361100000000000000000000000000000000000000000000000000000000000000000000000000000000, 12357423784000000000000000000000000000000000000000000000000000000000000000000000000000000000, 12357011637100000000000000000000000000000000000000000000000000000000000000000000000000000000, 12356603428200000000000000000000000000000000000000000000000000000000000000000000000000000000, 12356198695800000000000000000000000000000000000000000000000000000000000000000000000000000000, 12355797007700000000000000000000000000000000000000000000000000000000000000000000000000000000, 12355397958500000000000000000000000000000000000000000000000000000000000000000000000000000000, 12355001168600000000000000000000000000000000000000000000000000000000000000000000000000000000, 12354606281900000000000000000000000000000000000000000000000000000000000000000000000000000000, 12354212964500000000000000000000000000000000000000000000000000000000000000000000000000000000, 12353820903000000000000000000000000000000000000000000000000000000000000000000000000000000000, 12353429802900000000000000000000000000000000000000000000000000000000000000000000000000000000, 12353039387500000000000000000000000000000000000000000000000000000000000000000000000000000000, 12352649396700000000000000000000000000000000000000000000000000000000000000000000000000000000, 12352259585600000000000000000000000000000000000000000000000000000000000000000000000000000000]),
  (235748897796000, [12352534335300000000000000000000000000000000000000000000000000000000000000000000000000000000, 12350806461500000000000000000000000000000000000000000000000000000000000000000000000000000000, 12350740046900000000000000000000000000000000000000000000000000000000000000000000000000000000, 12350698593000000000000000000000000000000000000000000000000000000000000000000000000000000000, 12350469086400000000000000000000000000000000000000000000000000000000000000000000000000000000, 12350084661100000000000000000000000000000000000000000000000000000000000000000000000000000000, 12349601176300000000000000000000000000000000000000000000000000000000000000000000000000000000, 12349061397100000000000000000000000000000000000000000000000000000000000000000000000000000000, 12348493649100000000000000000000000000000000000000000000000000000000000000000000000000000000, 12347915685500000000000000000000000000000000000000000000000000000000000000000000000000000000, 12347338265600000000000000000000000000000000000000000000000000000000000000000000000000000000, 12346767694000000000000000000000000000000000000000000000000000000000000000000000000000000000, 12346207484800000000000000000000000000000000000000000000000000000000000000000000000000000000, 12345659421200000000000000000000000000000000000000000000000000000000000000000000000000000000, 12345124220500000000000000000000000000000000000000000000000000000000000000000000000000000000, 12344601951200000000000000000000000000000000000000000000000000000000000000000000000000000000, 12344092293600000000000000000000000000000000000000000000000000000000000000000000000000000000, 12343594703600000000000000000000000000000000000000000000000000000000000000000000000000000000, 12343108514400000000000000000000000000000000000000000000000000000000000000000000000000000000, 12342633001500000000000000000000000000000000000000000000000000000000000000000000000000000000, 12342167421900000000000000000000000000000000000000000000000000000000000000000000000000000000, 12341711039100000000000000000000000000000000000000000000000000000000000000000000000000000000, 12341263137400000000000000000000000000000000000000000000000000000000000000000000000000000000, 12340823030400000000000000000000000000000000000000000000000000000000000000000000000000000000, 12340390065400000000000000000000000000000000000000000000000000000000000000000000000000000000, 12339963625200000000000000000000000000000000000000000000000000000000000000000000000000000000, 12339543128100000000000000000000000000000000000000000000000000000000000000000000000000000000, 12339128027400000000000000000000000000000000000000000000000000000000000000000000000000000000, 12338717810000000000000000000000000000000000000000000000000000000000000000000000000000000000, 12338311994300000000000000000000000000000000000000000000000000000000000000000000000000000000, 12337910128700000000000000000000000000000000000000000000000000000000000000000000000000000000, 12337511789900000000000000000000000000000000000000000000000000000000000000000000000000000000, 12337116580400000000000000000000000000000000000000000000000000000000000000000000000000000000, 12336724127300000000000000000000000000000000000000000000000000000000000000000000000000000000, 12336334080200000000000000000000000000000000000000000000000000000000000000000000000000000000, 12335946109700000000000000000000000000000000000000000000000000000000000000000000000000000000, 12335559906100000000000000000000000000000000000000000000000000000000000000000000000000000000, 12335175177700000000000000000000000000000000000000000000000000000000000000000000000000000000, 12334791649900000000000000000000000000000000000000000000000000000000000000000000000000000000, 12334409063600000000000000000000000000000000000000000000000000000000000000000000000000000000]),
  (237852905812000, [12337454708300000000000000000000000000000000000000000000000000000000000000000000000000000000, 12335659888200000000000000000000000000000000000000000000000000000000000000000000000000000000, 12335535518300000000000000000000000000000000000000000000000000000000000000000000000000000000, 12335441941600000000000000000000000000000000000000000000000000000000000000000000000000000000, 12335164594600000000000000000000000000000000000000000000000000000000000000000000000000000000, 12334735730600000000000000000000000000000000000000000000000000000000000000000000000000000000, 12334210637900000000000000000000000000000000000000000000000000000000000000000000000000000000, 12333631691600000000000000000000000000000000000000000000000000000000000000000000000000000000, 12333026941200000000000000000000000000000000000000000000000000000000000000000000000000000000, 12332413936700000000000000000000000000000000000000000000000000000000000000000000000000000000, 12331803280800000000000000000000000000000000000000000000000000000000000000000000000000000000, 12331201152500000000000000000000000000000000000000000000000000000000000000000000000000000000, 12330610962500000000000000000000000000000000000000000000000000000000000000000000000000000000, 12330034405800000000000000000000000000000000000000000000000000000000000000000000000000000000, 12329472124400000000000000000000000000000000000000000000000000000000000000000000000000000000, 12328924120900000000000000000000000000000000000000000000000000000000000000000000000000000000, 12328390018100000000000000000000000000000000000000000000000000000000000000000000000000000000, 12327869220500000000000000000000000000000000000000000000000000000000000000000000000000000000, 12327361016300000000000000000000000000000000000000000000000000000000000000000000000000000000, 12326864640400000000000000000000000000000000000000000000000000000000000000000000000000000000, 12326379313400000000000000000000000000000000000000000000000000000000000000000000000000000000, 12325904265900000000000000000000000000000000000000000000000000000000000000000000000000000000, 12325438752000000000000000000000000000000000000000000000000000000000000000000000000000000000, 12324982058000000000000000000000000000000000000000000000000000000000000000000000000000000000, 12324533505800000000000000000000000000000000000000000000000000000000000000000000000000000000, 12324092454600000000000000000000000000000000000000000000000000000000000000000000000000000000, 12323658301000000000000000000000000000000000000000000000000000000000000000000000000000000000, 12323230477700000000000000000000000000000000000000000000000000000000000000000000000000000000, 12322808452200000000000000000000000000000000000000000000000000000000000000000000000000000000, 12322391724700000000000000000000000000000000000000000000000000000000000000000000000000000000, 12321979826500000000000000000000000000000000000000000000000000000000000000000000000000000000, 12321572317300000000000000000000000000000000000000000000000000000000000000000000000000000000, 12321168784100000000000000000000000000000000000000000000000000000000000000000000000000000000, 12320768838800000000000000000000000000000000000000000000000000000000000000000000000000000000, 12320372116300000000000000000000000000000000000000000000000000000000000000000000000000000000, 12319978273300000000000000000000000000000000000000000000000000000000000000000000000000000000, 12319586986400000000000000000000000000000000000000000000000000000000000000000000000000000000, 12319197950900000000000000000000000000000000000000000000000000000000000000000000000000000000, 12318810879100000000000000000000000000000000000000000000000000000000000000000000000000000000, 12318425499600000000000000000000000000000000000000000000000000000000000000000000000000000000]),
  (239956913828000, [12324523064500000000000000000000000000000000000000000000000000000000000000000000000000000000, 12322670137700000000000000000000000000000000000000000000000000000000000000000000000000000000, 12322490305800000000000000000000000000000000000000000000000000000000000000000000000000000000, 12322343479500000000000000000000000000000000000000000000000000000000000000000000000000000000, 12322014888000000000000000000000000000000000000000000000000000000000000000000000000000000000, 12321536729200000000000000000000000000000000000000000000000000000000000000000000000000000000, 12320964255300000000000000000000000000000000000000000000000000000000000000000000000000000000, 12320339790900000000000000000000000000000000000000000000000000000000000000000000000000000000, 12319691318300000000000000000000000000000000000000000000000000000000000000000000000000000000, 12319036308800000000000000000000000000000000000000000000000000000000000000000000000000000000, 12318385282500000000000000000000000000000000000000000000000000000000000000000000000000000000, 12317744336500000000000000000000000000000000000000000000000000000000000000000000000000000000, 12317116803100000000000000000000000000000000000000000000000000000000000000000000000000000000, 12316504305300000000000000000000000000000000000000000000000000000000000000000000000000000000, 12315907419100000000000000000000000000000000000000000000000000000000000000000000000000000000, 12315326087600000000000000000000000000000000000000000000000000000000000000000000000000000000, 12314759880100000000000000000000000000000000000000000000000000000000000000000000000000000000, 12314208153500000000000000000000000000000000000000000000000000000000000000000000000000000000, 12313670153000000000000000000000000000000000000000000000000000000000000000000000000000000000, 12313145074900000000000000000000000000000000000000000000000000000000000000000000000000000000, 12312632105300000000000000000000000000000000000000000000000000000000000000000000000000000000, 12312130443100000000000000000000000000000000000000000000000000000000000000000000000000000000, 12311639314100000000000000000000000000000000000000000000000000000000000000000000000000000000, 12311157978500000000000000000000000000000000000000000000000000000000000000000000000000000000, 12310685734100000000000000000000000000000000000000000000000000000000000000000000000000000000, 12310221918200000000000000000000000000000000000000000000000000000000000000000000000000000000, 12309765906900000000000000000000000000000000000000000000000000000000000000000000000000000000, 12309317113900000000000000000000000000000000000000000000000000000000000000000000000000000000, 12308874989000000000000000000000000000000000000000000000000000000000000000000000000000000000, 12308439015600000000000000000000000000000000000000000000000000000000000000000000000000000000, 12308008709200000000000000000000000000000000000000000000000000000000000000000000000000000000, 12307583614900000000000000000000000000000000000000000000000000000000000000000000000000000000, 12307163305400000000000000000000000000000000000000000000000000000000000000000000000000000000, 12306747378900000000000000000000000000000000000000000000000000000000000000000000000000000000, 12306335457700000000000000000000000000000000000000000000000000000000000000000000000000000000, 12305927186000000000000000000000000000000000000000000000000000000000000000000000000000000000, 12305522228600000000000000000000000000000000000000000000000000000000000000000000000000000000, 12305120269000000000000000000000000000000000000000000000000000000000000000000000000000000000, 12304721008800000000000000000000000000000000000000000000000000000000000000000000000000000000, 12304324165600000000000000000000000000000000000000000000000000000000000000000000000000000000]),
  (242060921844000, [12313691701800000000000000000000000000000000000000000000000000000000000000000000000000000000, 12311786229400000000000000000000000000000000000000000000000000000000000000000000000000000000, 12311551746100000000000000000000000000000000000000000000000000000000000000000000000000000000, 12311350114600000000000000000000000000000000000000000000000000000000000000000000000000000000, 12310967317700000000000000000000000000000000000000000000000000000000000000000000000000000000, 12310435956900000000000000000000000000000000000000000000000000000000000000000000000000000000, 12309811555200000000000000000000000000000000000000000000000000000000000000000000000000000000, 12309136601000000000000000000000000000000000000000000000000000000000000000000000000000000000, 12308439150500000000000000000000000000000000000000000000000000000000000000000000000000000000, 12307736684100000000000000000000000000000000000000000000000000000000000000000000000000000000, 12307039690800000000000000000000000000000000000000000000000000000000000000000000000000000000, 12306354214800000000000000000000000000000000000000000000000000000000000000000000000000000000, 12305683527500000000000000000000000000000000000000000000000000000000000000000000000000000000, 12305029189200000000000000000000000000000000000000000000000000000000000000000000000000000000, 12304391716200000000000000000000000000000000000000000000000000000000000000000000000000000000, 12303770996300000000000000000000000000000000000000000000000000000000000000000000000000000000, 12303166548800000000000000000000000000000000000000000000000000000000000000000000000000000000, 12302577685200000000000000000000000000000000000000000000000000000000000000000000000000000000, 12302003610200000000000000000000000000000000000000000000000000000000000000000000000000000000, 12301443483600000000000000000000000000000000000000000000000000000000000000000000000000000000, 12300896458400000000000000000000000000000000000000000000000000000000000000000000000000000000, 12300361703900000000000000000000000000000000000000000000000000000000000000000000000000000000, 12299838419000000000000000000000000000000000000000000000000000000000000000000000000000000000, 12299325839100000000000000000000000000000000000000000000000000000000000000000000000000000000, 12298823239700000000000000000000000000000000000000000000000000000000000000000000000000000000, 12298329937600000000000000000000000000000000000000000000000000000000000000000000000000000000, 12297845289900000000000000000000000000000000000000000000000000000000000000000000000000000000, 12297368692600000000000000000000000000000000000000000000000000000000000000000000000000000000, 12296899579300000000000000000000000000000000000000000000000000000000000000000000000000000000, 12296437418200000000000000000000000000000000000000000000000000000000000000000000000000000000, 12295981710600000000000000000000000000000000000000000000000000000000000000000000000000000000, 12295531988200000000000000000000000000000000000000000000000000000000000000000000000000000000, 12295087810900000000000000000000000000000000000000000000000000000000000000000000000000000000, 12294648765400000000000000000000000000000000000000000000000000000000000000000000000000000000, 12294214462300000000000000000000000000000000000000000000000000000000000000000000000000000000, 12293784535000000000000000000000000000000000000000000000000000000000000000000000000000000000, 12293358638000000000000000000000000000000000000000000000000000000000000000000000000000000000, 12292936444900000000000000000000000000000000000000000000000000000000000000000000000000000000, 12292517647600000000000000000000000000000000000000000000000000000000000000000000000000000000, 12292101954600000000000000000000000000000000000000000000000000000000000000000000000000000000]),
  (244164929860000, [12304924447600000000000000000000000000000000000000000000000000000000000000000000000000000000, 12302958233300000000000000000000000000000000000000000000000000000000000000000000000000000000, 12302662621400000000000000000000000000000000000000000000000000000000000000000000000000000000, 12302401167500000000000000000000000000000000000000000000000000000000000000000000000000000000, 12301959898300000000000000000000000000000000000000000000000000000000000000000000000000000000, 12301371360200000000000000000000000000000000000000000000000000000000000000000000000000000000, 12300691119800000000000000000000000000000000000000000000000000000000000000000000000000000000, 12299961731800000000000000000000000000000000000000000000000000000000000000000000000000000000, 12299211286900000000000000000000000000000000000000000000000000000000000000000000000000000000, 12298457258700000000000000000000000000000000000000000000000000000000000000000000000000000000, 12297710098500000000000000000000000000000000000000000000000000000000000000000000000000000000, 12296975796100000000000000000000000000000000000000000000000000000000000000000000000000000000, 12296257561600000000000000000000000000000000000000000000000000000000000000000000000000000000, 12295556894600000000000000000000000000000000000000000000000000000000000000000000000000000000, 12294874253900000000000000000000000000000000000000000000000000000000000000000000000000000000, 12294209475200000000000000000000000000000000000000000000000000000000000000000000000000000000, 12293562030500000000000000000000000000000000000000000000000000000000000000000000000000000000, 12292931189300000000000000000000000000000000000000000000000000000000000000000000000000000000, 12292316118400000000000000000000000000000000000000000000000000000000000000000000000000000000, 12291715943900000000000000000000000000000000000000000000000000000000000000000000000000000000, 12291129788300000000000000000000000000000000000000000000000000000000000000000000000000000000, 12290556793600000000000000000000000000000000000000000000000000000000000000000000000000000000, 12289996133600000000000000000000000000000000000000000000000000000000000000000000000000000000, 12289447021100000000000000000000000000000000000000000000000000000000000000000000000000000000, 12288908711100000000000000000000000000000000000000000000000000000000000000000000000000000000, 12288380501300000000000000000000000000000000000000000000000000000000000000000000000000000000, 12287861731400000000000000000000000000000000000000000000000000000000000000000000000000000000, 12287351781600000000000000000000000000000000000000000000000000000000000000000000000000000000, 12286850070500000000000000000000000000000000000000000000000000000000000000000000000000000000, 12286356052800000000000000000000000000000000000000000000000000000000000000000000000000000000, 12285869216800000000000000000000000000000000000000000000000000000000000000000000000000000000, 12285389082400000000000000000000000000000000000000000000000000000000000000000000000000000000, 12284915198400000000000000000000000000000000000000000000000000000000000000000000000000000000, 12284447140700000000000000000000000000000000000000000000000000000000000000000000000000000000, 12283984510300000000000000000000000000000000000000000000000000000000000000000000000000000000, 12283526931000000000000000000000000000000000000000000000000000000000000000000000000000000000, 12283074048300000000000000000000000000000000000000000000000000000000000000000000000000000000, 12282625527400000000000000000000000000000000000000000000000000000000000000000000000000000000, 12282181052000000000000000000000000000000000000000000000000000000000000000000000000000000000, 12281740322700000000000000000000000000000000000000000000000000000000000000000000000000000000]),
  (246268937876000, [12298160248300000000000000000000000000000000000000000000000000000000000000000000000000000000, 12296119085900000000000000000000000000000000000000000000000000000000000000000000000000000000, 12295753070200000000000000000000000000000000000000000000000000000000000000000000000000000000, 12295425444300000000000000000000000000000000000000000000000000000000000000000000000000000000, 12294921119600000000000000000000000000000000000000000000000000000000000000000000000000000000, 12294271822700000000000000000000000000000000000000000000000000000000000000000000000000000000, 12293532682200000000000000000000000000000000000000000000000000000000000000000000000000000000, 12292746029200000000000000000000000000000000000000000000000000000000000000000000000000000000, 12291939820600000000000000000000000000000000000000000000000000000000000000000000000000000000, 12291131429200000000000000000000000000000000000000000000000000000000000000000000000000000000, 12290331219200000000000000000000000000000000000000000000000000000000000000000000000000000000, 12289545102100000000000000000000000000000000000000000000000000000000000000000000000000000000, 12288776218400000000000000000000000000000000000000000000000000000000000000000000000000000000, 12288026006100000000000000000000000000000000000000000000000000000000000000000000000000000000, 12287294870100000000000000000000000000000000000000000000000000000000000000000000000000000000, 12286582598700000000000000000000000000000000000000000000000000000000000000000000000000000000, 12285888622300000000000000000000000000000000000000000000000000000000000000000000000000000000, 12285212173300000000000000000000000000000000000000000000000000000000000000000000000000000000, 12284552385900000000000000000000000000000000000000000000000000000000000000000000000000000000, 12283908356300000000000000000000000000000000000000000000000000000000000000000000000000000000, 12283279180400000000000000000000000000000000000000000000000000000000000000000000000000000000, 12282663975900000000000000000000000000000000000000000000000000000000000000000000000000000000, 12282061894400000000000000000000000000000000000000000000000000000000000000000000000000000000, 12281472128700000000000000000000000000000000000000000000000000000000000000000000000000000000, 12280893915400000000000000000000000000000000000000000000000000000000000000000000000000000000, 12280326535000000000000000000000000000000000000000000000000000000000000000000000000000000000, 12279769312000000000000000000000000000000000000000000000000000000000000000000000000000000000, 12279221612100000000000000000000000000000000000000000000000000000000000000000000000000000000, 12278682840700000000000000000000000000000000000000000000000000000000000000000000000000000000, 12278152440300000000000000000000000000000000000000000000000000000000000000000000000000000000, 12277629887900000000000000000000000000000000000000000000000000000000000000000000000000000000, 12277114692900000000000000000000000000000000000000000000000000000000000000000000000000000000, 12276606394200000000000000000000000000000000000000000000000000000000000000000000000000000000, 12276104558500000000000000000000000000000000000000000000000000000000000000000000000000000000, 12275608778100000000000000000000000000000000000000000000000000000000000000000000000000000000, 12275118668800000000000000000000000000000000000000000000000000000000000000000000000000000000, 12274633868500000000000000000000000000000000000000000000000000000000000000000000000000000000, 12274154034900000000000000000000000000000000000000000000000000000000000000000000000000000000, 12273678844800000000000000000000000000000000000000000000000000000000000000000000000000000000, 12273207992200000000000000000000000000000000000000000000000000000000000000000000000000000000]),
  (248372945892000, [12293305822000000000000000000000000000000000000000000000000000000000000000000000000000000000, 12291181121600000000000000000000000000000000000000000000000000000000000000000000000000000000, 12290739350100000000000000000000000000000000000000000000000000000000000000000000000000000000, 12290341715800000000000000000000000000000000000000000000000000000000000000000000000000000000, 12289771551500000000000000000000000000000000000000000000000000000000000000000000000000000000, 12289059419200000000000000000000000000000000000000000000000000000000000000000000000000000000, 12288259710600000000000000000000000000000000000000000000000000000000000000000000000000000000, 12287414300800000000000000000000000000000000000000000000000000000000000000000000000000000000, 12286550854100000000000000000000000000000000000000000000000000000000000000000000000000000000, 12285686547800000000000000000000000000000000000000000000000000000000000000000000000000000000, 12284831610200000000000000000000000000000000000000000000000000000000000000000000000000000000, 12283991855400000000000000000000000000000000000000000000000000000000000000000000000000000000, 12283170351700000000000000000000000000000000000000000000000000000000000000000000000000000000, 12282368481200000000000000000000000000000000000000000000000000000000000000000000000000000000, 12281586604200000000000000000000000000000000000000000000000000000000000000000000000000000000, 12280824471700000000000000000000000000000000000000000000000000000000000000000000000000000000, 12280081481700000000000000000000000000000000000000000000000000000000000000000000000000000000, 12279356838200000000000000000000000000000000000000000000000000000000000000000000000000000000, 12278649649200000000000000000000000000000000000000000000000000000000000000000000000000000000, 12277958987400000000000000000000000000000000000000000000000000000000000000000000000000000000, 12277283926900000000000000000000000000000000000000000000000000000000000000000000000000000000, 12276623565300000000000000000000000000000000000000000000000000000000000000000000000000000000, 12275977035700000000000000000000000000000000000000000000000000000000000000000000000000000000, 12275343513800000000000000000000000000000000000000000000000000000000000000000000000000000000, 12274722220000000000000000000000000000000000000000000000000000000000000000000000000000000000, 12274112420600000000000000000000000000000000000000000000000000000000000000000000000000000000, 12273513426200000000000000000000000000000000000000000000000000000000000000000000000000000000, 12272924590100000000000000000000000000000000000000000000000000000000000000000000000000000000, 12272345306100000000000000000000000000000000000000000000000000000000000000000000000000000000, 12271775006100000000000000000000000000000000000000000000000000000000000000000000000000000000, 12271213157100000000000000000000000000000000000000000000000000000000000000000000000000000000, 12270659259200000000000000000000000000000000000000000000000000000000000000000000000000000000, 12270112842800000000000000000000000000000000000000000000000000000000000000000000000000000000, 12269573466700000000000000000000000000000000000000000000000000000000000000000000000000000000, 12269040715600000000000000000000000000000000000000000000000000000000000000000000000000000000, 12268514198500000000000000000000000000000000000000000000000000000000000000000000000000000000, 12267993546400000000000000000000000000000000000000000000000000000000000000000000000000000000, 12267478411100000000000000000000000000000000000000000000000000000000000000000000000000000000, 12266968463500000000000000000000000000000000000000000000000000000000000000000000000000000000, 12266463392100000000000000000000000000000000000000000000000000000000000000000000000000000000]),
  (250476953908000, [12290253192400000000000000000000000000000000000000000000000000000000000000000000000000000000, 12288048123500000000000000000000000000000000000000000000000000000000000000000000000000000000, 12287531419300000000000000000000000000000000000000000000000000000000000000000000000000000000, 12287064004100000000000000000000000000000000000000000000000000000000000000000000000000000000, 12286427983000000000000000000000000000000000000000000000000000000000000000000000000000000000, 12285652939800000000000000000000000000000000000000000000000000000000000000000000000000000000, 12284792556900000000000000000000000000000000000000000000000000000000000000000000000000000000, 12283888202500000000000000000000000000000000000000000000000000000000000000000000000000000000, 12282967190100000000000000000000000000000000000000000000000000000000000000000000000000000000, 12282046464000000000000000000000000000000000000000000000000000000000000000000000000000000000, 12281136102800000000000000000000000000000000000000000000000000000000000000000000000000000000, 12280241826300000000000000000000000000000000000000000000000000000000000000000000000000000000, 12279366642500000000000000000000000000000000000000000000000000000000000000000000000000000000, 12278511893600000000000000000000000000000000000000000000000000000000000000000000000000000000, 12277677910900000000000000000000000000000000000000000000000000000000000000000000000000000000, 12276864422600000000000000000000000000000000000000000000000000000000000000000000000000000000, 12276070806500000000000000000000000000000000000000000000000000000000000000000000000000000000, 12275296248300000000000000000000000000000000000000000000000000000000000000000000000000000000, 12274539838600000000000000000000000000000000000000000000000000000000000000000000000000000000, 12273800633100000000000000000000000000000000000000000000000000000000000000000000000000000000, 12273077689900000000000000000000000000000000000000000000000000000000000000000000000000000000, 12272370090800000000000000000000000000000000000000000000000000000000000000000000000000000000, 12271676954400000000000000000000000000000000000000000000000000000000000000000000000000000000, 12270997442000000000000000000000000000000000000000000000000000000000000000000000000000000000, 12270330761200000000000000000000000000000000000000000000000000000000000000000000000000000000, 12269676165700000000000000000000000000000000000000000000000000000000000000000000000000000000, 12269032954500000000000000000000000000000000000000000000000000000000000000000000000000000000, 12268400470200000000000000000000000000000000000000000000000000000000000000000000000000000000, 12267778096700000000000000000000000000000000000000000000000000000000000000000000000000000000, 12267165256500000000000000000000000000000000000000000000000000000000000000000000000000000000, 12266561407900000000000000000000000000000000000000000000000000000000000000000000000000000000, 12265966043100000000000000000000000000000000000000000000000000000000000000000000000000000000, 12265378685100000000000000000000000000000000000000000000000000000000000000000000000000000000, 12264798885700000000000000000000000000000000000000000000000000000000000000000000000000000000, 12264226223200000000000000000000000000000000000000000000000000000000000000000000000000000000, 12263660300600000000000000000000000000000000000000000000000000000000000000000000000000000000, 12263100743300000000000000000000000000000000000000000000000000000000000000000000000000000000, 12262547197900000000000000000000000000000000000000000000000000000000000000000000000000000000, 12261999330200000000000000000000000000000000000000000000000000000000000000000000000000000000, 12261456824100000000000000000000000000000000000000000000000000000000000000000000000000000000]),
  (252580961924000, [12288910965500000000000000000000000000000000000000000000000000000000000000000000000000000000, 12286630278900000000000000000000000000000000000000000000000000000000000000000000000000000000, 12286042527600000000000000000000000000000000000000000000000000000000000000000000000000000000, 12285508052200000000000000000000000000000000000000000000000000000000000000000000000000000000, 12284808052900000000000000000000000000000000000000000000000000000000000000000000000000000000, 12283971444200000000000000000000000000000000000000000000000000000000000000000000000000000000, 12283051364100000000000000000000000000000000000000000000000000000000000000000000000000000000, 12282088743600000000000000000000000000000000000000000000000000000000000000000000000000000000, 12281110578000000000000000000000000000000000000000000000000000000000000000000000000000000000, 12280133601800000000000000000000000000000000000000000000000000000000000000000000000000000000, 12279167767800000000000000000000000000000000000000000000000000000000000000000000000000000000, 12278218725400000000000000000000000000000000000000000000000000000000000000000000000000000000, 12277289445300000000000000000000000000000000000000000000000000000000000000000000000000000000, 12276381250300000000000000000000000000000000000000000000000000000000000000000000000000000000, 12275494460200000000000000000000000000000000000000000000000000000000000000000000000000000000, 12274628794300000000000000000000000000000000000000000000000000000000000000000000000000000000, 12273783622400000000000000000000000000000000000000000000000000000000000000000000000000000000, 12272958121000000000000000000000000000000000000000000000000000000000000000000000000000000000, 12272151370500000000000000000000000000000000000000000000000000000000000000000000000000000000, 12271362416000000000000000000000000000000000000000000000000000000000000000000000000000000000, 12270590304000000000000000000000000000000000000000000000000000000000000000000000000000000000, 12269834105000000000000000000000000000000000000000000000000000000000000000000000000000000000, 12269092925700000000000000000000000000000000000000000000000000000000000000000000000000000000, 12268365916300000000000000000000000000000000000000000000000000000000000000000000000000000000, 12267652273500000000000000000000000000000000000000000000000000000000000000000000000000000000, 12266951240600000000000000000000000000000000000000000000000000000000000000000000000000000000, 12266262106700000000000000000000000000000000000000000000000000000000000000000000000000000000, 12265584205300000000000000000000000000000000000000000000000000000000000000000000000000000000, 12264916911400000000000000000000000000000000000000000000000000000000000000000000000000000000, 12264259639500000000000000000000000000000000000000000000000000000000000000000000000000000000, 12263611840500000000000000000000000000000000000000000000000000000000000000000000000000000000, 12262972999600000000000000000000000000000000000000000000000000000000000000000000000000000000, 12262342633200000000000000000000000000000000000000000000000000000000000000000000000000000000, 12261720287200000000000000000000000000000000000000000000000000000000000000000000000000000000, 12261105534300000000000000000000000000000000000000000000000000000000000000000000000000000000, 12260497972200000000000000000000000000000000000000000000000000000000000000000000000000000000, 12259897221600000000000000000000000000000000000000000000000000000000000000000000000000000000, 12259302924600000000000000000000000000000000000000000000000000000000000000000000000000000000, 12258714742800000000000000000000000000000000000000000000000000000000000000000000000000000000, 12258132356200000000000000000000000000000000000000000000000000000000000000000000000000000000]),
  (254684969940000, [12289207527000000000000000000000000000000000000000000000000000000000000000000000000000000000, 12286850301800000000000000000000000000000000000000000000000000000000000000000000000000000000, 12286193800600000000000000000000000000000000000000000000000000000000000000000000000000000000, 12285594732600000000000000000000000000000000000000000000000000000000000000000000000000000000, 12284832849600000000000000000000000000000000000000000000000000000000000000000000000000000000, 12283936326800000000000000000000000000000000000000000000000000000000000000000000000000000000, 12282957797600000000000000000000000000000000000000000000000000000000000000000000000000000000, 12281937822500000000000000000000000000000000000000000000000000000000000000000000000000000000, 12280903142500000000000000000000000000000000000000000000000000000000000000000000000000000000, 12279870336200000000000000000000000000000000000000000000000000000000000000000000000000000000, 12278849271000000000000000000000000000000000000000000000000000000000000000000000000000000000, 12277845556100000000000000000000000000000000000000000000000000000000000000000000000000000000, 12276862146600000000000000000000000000000000000000000000000000000000000000000000000000000000, 12275900361300000000000000000000000000000000000000000000000000000000000000000000000000000000, 12274960520000000000000000000000000000000000000000000000000000000000000000000000000000000000, 12274042342100000000000000000000000000000000000000000000000000000000000000000000000000000000, 12273145195500000000000000000000000000000000000000000000000000000000000000000000000000000000, 12272268252700000000000000000000000000000000000000000000000000000000000000000000000000000000, 12271410588200000000000000000000000000000000000000000000000000000000000000000000000000000000, 12270571239500000000000000000000000000000000000000000000000000000000000000000000000000000000, 12269749244600000000000000000000000000000000000000000000000000000000000000000000000000000000, 12268943664600000000000000000000000000000000000000000000000000000000000000000000000000000000, 12268153596700000000000000000000000000000000000000000000000000000000000000000000000000000000, 12267378181600000000000000000000000000000000000000000000000000000000000000000000000000000000, 12266616606400000000000000000000000000000000000000000000000000000000000000000000000000000000, 12265868105500000000000000000000000000000000000000000000000000000000000000000000000000000000, 12265131959400000000000000000000000000000000000000000000000000000000000000000000000000000000, 12264407493300000000000000000000000000000000000000000000000000000000000000000000000000000000, 12263694074700000000000000000000000000000000000000000000000000000000000000000000000000000000, 12262991110700000000000000000000000000000000000000000000000000000000000000000000000000000000, 12262298045800000000000000000000000000000000000000000000000000000000000000000000000000000000, 12261614358600000000000000000000000000000000000000000000000000000000000000000000000000000000, 12260939560100000000000000000000000000000000000000000000000000000000000000000000000000000000, 12260273190800000000000000000000000000000000000000000000000000000000000000000000000000000000, 12259614818400000000000000000000000000000000000000000000000000000000000000000000000000000000, 12258964036100000000000000000000000000000000000000000000000000000000000000000000000000000000, 12258320460500000000000000000000000000000000000000000000000000000000000000000000000000000000, 12257683729500000000000000000000000000000000000000000000000000000000000000000000000000000000, 12257053501400000000000000000000000000000000000000000000000000000000000000000000000000000000, 12256429452700000000000000000000000000000000000000000000000000000000000000000000000000000000]),
  (256788977956000, [12291073209300000000000000000000000000000000000000000000000000000000000000000000000000000000, 12288636611500000000000000000000000000000000000000000000000000000000000000000000000000000000, 12287911530300000000000000000000000000000000000000000000000000000000000000000000000000000000, 12287249063000000000000000000000000000000000000000000000000000000000000000000000000000000000, 12286426654800000000000000000000000000000000000000000000000000000000000000000000000000000000, 12285471386500000000000000000000000000000000000000000000000000000000000000000000000000000000, 12284435303000000000000000000000000000000000000000000000000000000000000000000000000000000000, 12283358628900000000000000000000000000000000000000000000000000000000000000000000000000000000, 12282267915200000000000000000000000000000000000000000000000000000000000000000000000000000000, 12281179638900000000000000000000000000000000000000000000000000000000000000000000000000000000, 12280103618300000000000000000000000000000000000000000000000000000000000000000000000000000000, 12279045442700000000000000000000000000000000000000000000000000000000000000000000000000000000, 12278008061300000000000000000000000000000000000000000000000000000000000000000000000000000000, 12276992792700000000000000000000000000000000000000000000000000000000000000000000000000000000, 12275999957000000000000000000000000000000000000000000000000000000000000000000000000000000000, 12275029272600000000000000000000000000000000000000000000000000000000000000000000000000000000, 12274080104600000000000000000000000000000000000000000000000000000000000000000000000000000000, 12273151620400000000000000000000000000000000000000000000000000000000000000000000000000000000, 12272242887800000000000000000000000000000000000000000000000000000000000000000000000000000000, 12271352936600000000000000000000000000000000000000000000000000000000000000000000000000000000, 12270480795900000000000000000000000000000000000000000000000000000000000000000000000000000000, 12269625517500000000000000000000000000000000000000000000000000000000000000000000000000000000, 12268786189700000000000000000000000000000000000000000000000000000000000000000000000000000000, 12267961943800000000000000000000000000000000000000000000000000000000000000000000000000000000, 12267151958100000000000000000000000000000000000000000000000000000000000000000000000000000000, 12266355458200000000000000000000000000000000000000000000000000000000000000000000000000000000, 12265571716700000000000000000000000000000000000000000000000000000000000000000000000000000000, 12264800051200000000000000000000000000000000000000000000000000000000000000000000000000000000, 12264039821900000000000000000000000000000000000000000000000000000000000000000000000000000000, 12263290429400000000000000000000000000000000000000000000000000000000000000000000000000000000, 12262551311800000000000000000000000000000000000000000000000000000000000000000000000000000000, 12261821942400000000000000000000000000000000000000000000000000000000000000000000000000000000, 12261101826700000000000000000000000000000000000000000000000000000000000000000000000000000000, 12260390500200000000000000000000000000000000000000000000000000000000000000000000000000000000, 12259687526400000000000000000000000000000000000000000000000000000000000000000000000000000000, 12258992494400000000000000000000000000000000000000000000000000000000000000000000000000000000, 12258305016800000000000000000000000000000000000000000000000000000000000000000000000000000000, 12257624728300000000000000000000000000000000000000000000000000000000000000000000000000000000, 12256951283800000000000000000000000000000000000000000000000000000000000000000000000000000000, 12256284356900000000000000000000000000000000000000000000000000000000000000000000000000000000]),
  (258892985972000, [12294423168400000000000000000000000000000000000000000000000000000000000000000000000000000000, 12291913266500000000000000000000000000000000000000000000000000000000000000000000000000000000, 12291121878600000000000000000000000000000000000000000000000000000000000000000000000000000000, 12290397204900000000000000000000000000000000000000000000000000000000000000000000000000000000, 12289515094400000000000000000000000000000000000000000000000000000000000000000000000000000000, 12288501650300000000000000000000000000000000000000000000000000000000000000000000000000000000, 12287408390500000000000000000000000000000000000000000000000000000000000000000000000000000000, 12286275279300000000000000000000000000000000000000000000000000000000000000000000000000000000, 12285128745100000000000000000000000000000000000000000000000000000000000000000000000000000000, 12283985207500000000000000000000000000000000000000000000000000000000000000000000000000000000, 12282854457200000000000000000000000000000000000000000000000000000000000000000000000000000000, 12281742067800000000000000000000000000000000000000000000000000000000000000000000000000000000, 12280650977700000000000000000000000000000000000000000000000000000000000000000000000000000000, 12279582495400000000000000000000000000000000000000000000000000000000000000000000000000000000, 12278536931100000000000000000000000000000000000000000000000000000000000000000000000000000000, 12277513992700000000000000000000000000000000000000000000000000000000000000000000000000000000, 12276513033900000000000000000000000000000000000000000000000000000000000000000000000000000000, 12275533210700000000000000000000000000000000000000000000000000000000000000000000000000000000, 12274573579300000000000000000000000000000000000000000000000000000000000000000000000000000000, 12273633157300000000000000000000000000000000000000000000000000000000000000000000000000000000, 12272710962600000000000000000000000000000000000000000000000000000000000000000000000000000000, 12271806036100000000000000000000000000000000000000000000000000000000000000000000000000000000, 12270917455000000000000000000000000000000000000000000000000000000000000000000000000000000000, 12270044340900000000000000000000000000000000000000000000000000000000000000000000000000000000, 12269185862400000000000000000000000000000000000000000000000000000000000000000000000000000000, 12268341236500000000000000000000000000000000000000000000000000000000000000000000000000000000, 12267509727400000000000000000000000000000000000000000000000000000000000000000000000000000000, 12266690645100000000000000000000000000000000000000000000000000000000000000000000000000000000, 12265883342800000000000000000000000000000000000000000000000000000000000000000000000000000000, 12265087214700000000000000000000000000000000000000000000000000000000000000000000000000000000, 12264301692900000000000000000000000000000000000000000000000000000000000000000000000000000000, 12263526245100000000000000000000000000000000000000000000000000000000000000000000000000000000, 12262760371900000000000000000000000000000000000000000000000000000000000000000000000000000000, 12262003604400000000000000000000000000000000000000000000000000000000000000000000000000000000, 12261255501800000000000000000000000000000000000000000000000000000000000000000000000000000000, 12260515649200000000000000000000000000000000000000000000000000000000000000000000000000000000, 12259783656000000000000000000000000000000000000000000000000000000000000000000000000000000000, 12259059153500000000000000000000000000000000000000000000000000000000000000000000000000000000, 12258341793800000000000000000000000000000000000000000000000000000000000000000000000000000000, 12257631247900000000000000000000000000000000000000000000000000000000000000000000000000000000]),
  (260996993988000, [12299170318800000000000000000000000000000000000000000000000000000000000000000000000000000000, 12296602476200000000000000000000000000000000000000000000000000000000000000000000000000000000, 12295749911200000000000000000000000000000000000000000000000000000000000000000000000000000000, 12294964784300000000000000000000000000000000000000000000000000000000000000000000000000000000, 12294023591100000000000000000000000000000000000000000000000000000000000000000000000000000000, 12292952179200000000000000000000000000000000000000000000000000000000000000000000000000000000, 12291801808100000000000000000000000000000000000000000000000000000000000000000000000000000000, 12290612308300000000000000000000000000000000000000000000000000000000000000000000000000000000, 12289410049900000000000000000000000000000000000000000000000000000000000000000000000000000000, 12288211423300000000000000000000000000000000000000000000000000000000000000000000000000000000, 12287026196400000000000000000000000000000000000000000000000000000000000000000000000000000000, 12285859918700000000000000000000000000000000000000000000000000000000000000000000000000000000, 12284715502600000000000000000000000000000000000000000000000000000000000000000000000000000000, 12283594230000000000000000000000000000000000000000000000000000000000000000000000000000000000, 12282496385000000000000000000000000000000000000000000000000000000000000000000000000000000000, 12281421650800000000000000000000000000000000000000000000000000000000000000000000000000000000, 12280369357900000000000000000000000000000000000000000000000000000000000000000000000000000000, 12279338641300000000000000000000000000000000000000000000000000000000000000000000000000000000, 12278328537800000000000000000000000000000000000000000000000000000000000000000000000000000000, 12277338047800000000000000000000000000000000000000000000000000000000000000000000000000000000, 12276366173200000000000000000000000000000000000000000000000000000000000000000000000000000000, 12275411940500000000000000000000000000000000000000000000000000000000000000000000000000000000, 12274474414100000000000000000000000000000000000000000000000000000000000000000000000000000000, 12273552703500000000000000000000000000000000000000000000000000000000000000000000000000000000, 12272645966900000000000000000000000000000000000000000000000000000000000000000000000000000000, 12271753411400000000000000000000000000000000000000000000000000000000000000000000000000000000, 12270874292600000000000000000000000000000000000000000000000000000000000000000000000000000000, 12270007912300000000000000000000000000000000000000000000000000000000000000000000000000000000, 12269153616700000000000000000000000000000000000000000000000000000000000000000000000000000000, 12268310793300000000000000000000000000000000000000000000000000000000000000000000000000000000, 12267478868300000000000000000000000000000000000000000000000000000000000000000000000000000000, 12266657303900000000000000000000000000000000000000000000000000000000000000000000000000000000, 12265845596100000000000000000000000000000000000000000000000000000000000000000000000000000000, 12265043271200000000000000000000000000000000000000000000000000000000000000000000000000000000, 12264249884500000000000000000000000000000000000000000000000000000000000000000000000000000000, 12263465017500000000000000000000000000000000000000000000000000000000000000000000000000000000, 12262688276200000000000000000000000000000000000000000000000000000000000000000000000000000000, 12261919289000000000000000000000000000000000000000000000000000000000000000000000000000000000, 12261157705200000000000000000000000000000000000000000000000000000000000000000000000000000000, 12260403193200000000000000000000000000000000000000000000000000000000000000000000000000000000])]
noncomputable def ttSpec5 : List (Nat × List Nat) := [
  (263101002004000, [12305257239000000000000000000000000000000000000000000000000000000000000000000000000000000000, 12302634170200000000000000000000000000000000000000000000000000000000000000000000000000000000, 12301721890200000000000000000000000000000000000000000000000000000000000000000000000000000000, 12300876932600000000000000000000000000000000000000000000000000000000000000000000000000000000, 12299876893200000000000000000000000000000000000000000000000000000000000000000000000000000000, 12298747620300000000000000000000000000000000000000000000000000000000000000000000000000000000, 12297540244900000000000000000000000000000000000000000000000000000000000000000000000000000000, 12296294525600000000000000000000000000000000000000000000000000000000000000000000000000000000, 12295036801000000000000000000000000000000000000000000000000000000000000000000000000000000000, 12293783438000000000000000000000000000000000000000000000000000000000000000000000000000000000, 12292544174400000000000000000000000000000000000000000000000000000000000000000000000000000000, 12291324522800000000000000000000000000000000000000000000000000000000000000000000000000000000, 12290127353800000000000000000000000000000000000000000000000000000000000000000000000000000000, 12288953906600000000000000000000000000000000000000000000000000000000000000000000000000000000, 12287804424300000000000000000000000000000000000000000000000000000000000000000000000000000000, 12286678552100000000000000000000000000000000000000000000000000000000000000000000000000000000, 12285575586900000000000000000000000000000000000000000000000000000000000000000000000000000000, 12284494633200000000000000000000000000000000000000000000000000000000000000000000000000000000, 12283434701600000000000000000000000000000000000000000000000000000000000000000000000000000000, 12282394769200000000000000000000000000000000000000000000000000000000000000000000000000000000, 12281373817800000000000000000000000000000000000000000000000000000000000000000000000000000000, 12280370856100000000000000000000000000000000000000000000000000000000000000000000000000000000, 12279384932900000000000000000000000000000000000000000000000000000000000000000000000000000000, 12278415144200000000000000000000000000000000000000000000000000000000000000000000000000000000, 12277460636000000000000000000000000000000000000000000000000000000000000000000000000000000000, 12276520604800000000000000000000000000000000000000000000000000000000000000000000000000000000, 12275594296700000000000000000000000000000000000000000000000000000000000000000000000000000000, 12274681005000000000000000000000000000000000000000000000000000000000000000000000000000000000, 12273780068300000000000000000000000000000000000000000000000000000000000000000000000000000000, 12272890867500000000000000000000000000000000000000000000000000000000000000000000000000000000, 12272012822700000000000000000000000000000000000000000000000000000000000000000000000000000000, 12271145390800000000000000000000000000000000000000000000000000000000000000000000000000000000, 12270288062600000000000000000000000000000000000000000000000000000000000000000000000000000000, 12269440360300000000000000000000000000000000000000000000000000000000000000000000000000000000, 12268601835000000000000000000000000000000000000000000000000000000000000000000000000000000000, 12267772064800000000000000000000000000000000000000000000000000000000000000000000000000000000, 12266950652400000000000000000000000000000000000000000000000000000000000000000000000000000000, 12266137223200000000000000000000000000000000000000000000000000000000000000000000000000000000, 12265331423900000000000000000000000000000000000000000000000000000000000000000000000000000000, 12264532920600000000000000000000000000000000000000000000000000000000000000000000000000000000]),
  (265205010020000, [12312634377300000000000000000000000000000000000000000000000000000000000000000000000000000000, 12309940650600000000000000000000000000000000000000000000000000000000000000000000000000000000, 12308963984900000000000000000000000000000000000000000000000000000000000000000000000000000000, 12308058154800000000000000000000000000000000000000000000000000000000000000000000000000000000, 12306999326500000000000000000000000000000000000000000000000000000000000000000000000000000000, 12305812591500000000000000000000000000000000000000000000000000000000000000000000000000000000, 12304548744300000000000000000000000000000000000000000000000000000000000000000000000000000000, 12303247416800000000000000000000000000000000000000000000000000000000000000000000000000000000, 12301934898500000000000000000000000000000000000000000000000000000000000000000000000000000000, 12300627523800000000000000000000000000000000000000000000000000000000000000000000000000000000, 12299334993200000000000000000000000000000000000000000000000000000000000000000000000000000000, 12298062773300000000000000000000000000000000000000000000000000000000000000000000000000000000, 12296813684100000000000000000000000000000000000000000000000000000000000000000000000000000000, 12295588913300000000000000000000000000000000000000000000000000000000000000000000000000000000, 12294388654500000000000000000000000000000000000000000000000000000000000000000000000000000000, 12293212507400000000000000000000000000000000000000000000000000000000000000000000000000000000, 12292059728200000000000000000000000000000000000000000000000000000000000000000000000000000000, 12290929385500000000000000000000000000000000000000000000000000000000000000000000000000000000, 12289820458700000000000000000000000000000000000000000000000000000000000000000000000000000000, 12288731898000000000000000000000000000000000000000000000000000000000000000000000000000000000, 12287662661700000000000000000000000000000000000000000000000000000000000000000000000000000000, 12286611738700000000000000000000000000000000000000000000000000000000000000000000000000000000, 12285578160400000000000000000000000000000000000000000000000000000000000000000000000000000000, 12284561007600000000000000000000000000000000000000000000000000000000000000000000000000000000, 12283559413500000000000000000000000000000000000000000000000000000000000000000000000000000000, 12282572563000000000000000000000000000000000000000000000000000000000000000000000000000000000, 12281599692300000000000000000000000000000000000000000000000000000000000000000000000000000000, 12280640086000000000000000000000000000000000000000000000000000000000000000000000000000000000, 12279693074900000000000000000000000000000000000000000000000000000000000000000000000000000000, 12278758033000000000000000000000000000000000000000000000000000000000000000000000000000000000, 12277834374300000000000000000000000000000000000000000000000000000000000000000000000000000000, 12276921550300000000000000000000000000000000000000000000000000000000000000000000000000000000, 12276019046800000000000000000000000000000000000000000000000000000000000000000000000000000000, 12275126381800000000000000000000000000000000000000000000000000000000000000000000000000000000, 12274243102400000000000000000000000000000000000000000000000000000000000000000000000000000000, 12273368783100000000000000000000000000000000000000000000000000000000000000000000000000000000, 12272503023400000000000000000000000000000000000000000000000000000000000000000000000000000000, 12271645446000000000000000000000000000000000000000000000000000000000000000000000000000000000, 12270795694900000000000000000000000000000000000000000000000000000000000000000000000000000000, 12269953433900000000000000000000000000000000000000000000000000000000000000000000000000000000]),
  (267309018036000, [12321217207600000000000000000000000000000000000000000000000000000000000000000000000000000000, 12318442254400000000000000000000000000000000000000000000000000000000000000000000000000000000, 12317398593200000000000000000000000000000000000000000000000000000000000000000000000000000000, 12316432182200000000000000000000000000000000000000000000000000000000000000000000000000000000, 12315315665000000000000000000000000000000000000000000000000000000000000000000000000000000000, 12314072729500000000000000000000000000000000000000000000000000000000000000000000000000000000, 12312753670700000000000000000000000000000000000000000000000000000000000000000000000000000000, 12311397964300000000000000000000000000000000000000000000000000000000000000000000000000000000, 12310031851700000000000000000000000000000000000000000000000000000000000000000000000000000000, 12308671639700000000000000000000000000000000000000000000000000000000000000000000000000000000, 12307326995200000000000000000000000000000000000000000000000000000000000000000000000000000000, 12306003341700000000000000000000000000000000000000000000000000000000000000000000000000000000, 12304703449600000000000000000000000000000000000000000000000000000000000000000000000000000000, 12303428455100000000000000000000000000000000000000000000000000000000000000000000000000000000, 12302178501600000000000000000000000000000000000000000000000000000000000000000000000000000000, 12300953142200000000000000000000000000000000000000000000000000000000000000000000000000000000, 12299751590700000000000000000000000000000000000000000000000000000000000000000000000000000000, 12298572878700000000000000000000000000000000000000000000000000000000000000000000000000000000, 12297415953000000000000000000000000000000000000000000000000000000000000000000000000000000000, 12296279735900000000000000000000000000000000000000000000000000000000000000000000000000000000, 12295163161400000000000000000000000000000000000000000000000000000000000000000000000000000000, 12294065197700000000000000000000000000000000000000000000000000000000000000000000000000000000, 12292984858200000000000000000000000000000000000000000000000000000000000000000000000000000000, 12291921208700000000000000000000000000000000000000000000000000000000000000000000000000000000, 12290873368800000000000000000000000000000000000000000000000000000000000000000000000000000000, 12289840512100000000000000000000000000000000000000000000000000000000000000000000000000000000, 12288821864600000000000000000000000000000000000000000000000000000000000000000000000000000000, 12287816702400000000000000000000000000000000000000000000000000000000000000000000000000000000, 12286824348500000000000000000000000000000000000000000000000000000000000000000000000000000000, 12285844169900000000000000000000000000000000000000000000000000000000000000000000000000000000, 12284875574900000000000000000000000000000000000000000000000000000000000000000000000000000000, 12283918009400000000000000000000000000000000000000000000000000000000000000000000000000000000, 12282970954500000000000000000000000000000000000000000000000000000000000000000000000000000000, 12282033923800000000000000000000000000000000000000000000000000000000000000000000000000000000, 12281106460800000000000000000000000000000000000000000000000000000000000000000000000000000000, 12280188136300000000000000000000000000000000000000000000000000000000000000000000000000000000, 12279278546700000000000000000000000000000000000000000000000000000000000000000000000000000000, 12278377311900000000000000000000000000000000000000000000000000000000000000000000000000000000, 12277484073400000000000000000000000000000000000000000000000000000000000000000000000000000000, 12276598492700000000000000000000000000000000000000000000000000000000000000000000000000000000]),
  (269413026052000, [12330896218400000000000000000000000000000000000000000000000000000000000000000000000000000000, 12328050518700000000000000000000000000000000000000000000000000000000000000000000000000000000, 12326946709900000000000000000000000000000000000000000000000000000000000000000000000000000000, 12325924095500000000000000000000000000000000000000000000000000000000000000000000000000000000, 12324752941500000000000000000000000000000000000000000000000000000000000000000000000000000000, 12323456169000000000000000000000000000000000000000000000000000000000000000000000000000000000, 12322083894700000000000000000000000000000000000000000000000000000000000000000000000000000000, 12320675595300000000000000000000000000000000000000000000000000000000000000000000000000000000, 12319257541100000000000000000000000000000000000000000000000000000000000000000000000000000000, 12317846049600000000000000000000000000000000000000000000000000000000000000000000000000000000, 12316450774600000000000000000000000000000000000000000000000000000000000000000000000000000000, 12315077108300000000000000000000000000000000000000000000000000000000000000000000000000000000, 12313727779700000000000000000000000000000000000000000000000000000000000000000000000000000000, 12312403879300000000000000000000000000000000000000000000000000000000000000000000000000000000, 12311105505100000000000000000000000000000000000000000000000000000000000000000000000000000000, 12309832167000000000000000000000000000000000000000000000000000000000000000000000000000000000, 12308583039700000000000000000000000000000000000000000000000000000000000000000000000000000000, 12307357119900000000000000000000000000000000000000000000000000000000000000000000000000000000, 12306153323800000000000000000000000000000000000000000000000000000000000000000000000000000000, 12304970547100000000000000000000000000000000000000000000000000000000000000000000000000000000, 12303807701200000000000000000000000000000000000000000000000000000000000000000000000000000000, 12302663734300000000000000000000000000000000000000000000000000000000000000000000000000000000, 12301537643400000000000000000000000000000000000000000000000000000000000000000000000000000000, 12300428479400000000000000000000000000000000000000000000000000000000000000000000000000000000, 12299335349400000000000000000000000000000000000000000000000000000000000000000000000000000000, 12298257416100000000000000000000000000000000000000000000000000000000000000000000000000000000, 12297193896200000000000000000000000000000000000000000000000000000000000000000000000000000000, 12296144057200000000000000000000000000000000000000000000000000000000000000000000000000000000, 12295107214800000000000000000000000000000000000000000000000000000000000000000000000000000000, 12294082729800000000000000000000000000000000000000000000000000000000000000000000000000000000, 12293070004400000000000000000000000000000000000000000000000000000000000000000000000000000000, 12292068479500000000000000000000000000000000000000000000000000000000000000000000000000000000, 12291077631700000000000000000000000000000000000000000000000000000000000000000000000000000000, 12290096970300000000000000000000000000000000000000000000000000000000000000000000000000000000, 12289126035100000000000000000000000000000000000000000000000000000000000000000000000000000000, 12288164393600000000000000000000000000000000000000000000000000000000000000000000000000000000, 12287211639200000000000000000000000000000000000000000000000000000000000000000000000000000000, 12286267388900000000000000000000000000000000000000000000000000000000000000000000000000000000, 12285331281800000000000000000000000000000000000000000000000000000000000000000000000000000000, 12284402977100000000000000000000000000000000000000000000000000000000000000000000000000000000]),
  (271517034068000, [12341582956500000000000000000000000000000000000000000000000000000000000000000000000000000000, 12338688750000000000000000000000000000000000000000000000000000000000000000000000000000000000, 12337536747900000000000000000000000000000000000000000000000000000000000000000000000000000000, 12336464464300000000000000000000000000000000000000000000000000000000000000000000000000000000, 12335242688900000000000000000000000000000000000000000000000000000000000000000000000000000000, 12333894944800000000000000000000000000000000000000000000000000000000000000000000000000000000, 12332471777600000000000000000000000000000000000000000000000000000000000000000000000000000000, 12331012930800000000000000000000000000000000000000000000000000000000000000000000000000000000, 12329544818300000000000000000000000000000000000000000000000000000000000000000000000000000000, 12328083818100000000000000000000000000000000000000000000000000000000000000000000000000000000, 12326639592800000000000000000000000000000000000000000000000000000000000000000000000000000000, 12325217515400000000000000000000000000000000000000000000000000000000000000000000000000000000, 12323820280900000000000000000000000000000000000000000000000000000000000000000000000000000000, 12322448940700000000000000000000000000000000000000000000000000000000000000000000000000000000, 12321103552800000000000000000000000000000000000000000000000000000000000000000000000000000000, 12319783589500000000000000000000000000000000000000000000000000000000000000000000000000000000, 12318488191200000000000000000000000000000000000000000000000000000000000000000000000000000000, 12317216324200000000000000000000000000000000000000000000000000000000000000000000000000000000, 12315966878200000000000000000000000000000000000000000000000000000000000000000000000000000000, 12314738725800000000000000000000000000000000000000000000000000000000000000000000000000000000, 12313530758400000000000000000000000000000000000000000000000000000000000000000000000000000000, 12312341907200000000000000000000000000000000000000000000000000000000000000000000000000000000, 12311171154100000000000000000000000000000000000000000000000000000000000000000000000000000000, 12310017537500000000000000000000000000000000000000000000000000000000000000000000000000000000, 12308880153100000000000000000000000000000000000000000000000000000000000000000000000000000000, 12307758154200000000000000000000000000000000000000000000000000000000000000000000000000000000, 12306650748500000000000000000000000000000000000000000000000000000000000000000000000000000000, 12305557196400000000000000000000000000000000000000000000000000000000000000000000000000000000, 12304476806900000000000000000000000000000000000000000000000000000000000000000000000000000000, 12303408934600000000000000000000000000000000000000000000000000000000000000000000000000000000, 12302352976600000000000000000000000000000000000000000000000000000000000000000000000000000000, 12301308368900000000000000000000000000000000000000000000000000000000000000000000000000000000, 12300274583900000000000000000000000000000000000000000000000000000000000000000000000000000000, 12299251126900000000000000000000000000000000000000000000000000000000000000000000000000000000, 12298237534100000000000000000000000000000000000000000000000000000000000000000000000000000000, 12297233369900000000000000000000000000000000000000000000000000000000000000000000000000000000, 12296238224700000000000000000000000000000000000000000000000000000000000000000000000000000000, 12295251712900000000000000000000000000000000000000000000000000000000000000000000000000000000, 12294273471000000000000000000000000000000000000000000000000000000000000000000000000000000000, 12293303156000000000000000000000000000000000000000000000000000000000000000000000000000000000]),
  (273621042084000, [12353235032200000000000000000000000000000000000000000000000000000000000000000000000000000000, 12350304013000000000000000000000000000000000000000000000000000000000000000000000000000000000, 12349109859400000000000000000000000000000000000000000000000000000000000000000000000000000000, 12347991688200000000000000000000000000000000000000000000000000000000000000000000000000000000, 12346722041000000000000000000000000000000000000000000000000000000000000000000000000000000000, 12345325593800000000000000000000000000000000000000000000000000000000000000000000000000000000, 12343853576400000000000000000000000000000000000000000000000000000000000000000000000000000000, 12342346108400000000000000000000000000000000000000000000000000000000000000000000000000000000, 12340829787800000000000000000000000000000000000000000000000000000000000000000000000000000000, 12339321063600000000000000000000000000000000000000000000000000000000000000000000000000000000, 12337829608300000000000000000000000000000000000000000000000000000000000000000000000000000000, 12336360773800000000000000000000000000000000000000000000000000000000000000000000000000000000, 12334917221600000000000000000000000000000000000000000000000000000000000000000000000000000000, 12333499965200000000000000000000000000000000000000000000000000000000000000000000000000000000, 12332109026600000000000000000000000000000000000000000000000000000000000000000000000000000000, 12330743844900000000000000000000000000000000000000000000000000000000000000000000000000000000, 12329403531000000000000000000000000000000000000000000000000000000000000000000000000000000000, 12328087025600000000000000000000000000000000000000000000000000000000000000000000000000000000, 12326793196400000000000000000000000000000000000000000000000000000000000000000000000000000000, 12325520897000000000000000000000000000000000000000000000000000000000000000000000000000000000, 12324269002500000000000000000000000000000000000000000000000000000000000000000000000000000000, 12323036430000000000000000000000000000000000000000000000000000000000000000000000000000000000, 12321822149200000000000000000000000000000000000000000000000000000000000000000000000000000000, 12320625187800000000000000000000000000000000000000000000000000000000000000000000000000000000, 12319444632400000000000000000000000000000000000000000000000000000000000000000000000000000000, 12318279627800000000000000000000000000000000000000000000000000000000000000000000000000000000, 12317129374600000000000000000000000000000000000000000000000000000000000000000000000000000000, 12315993126400000000000000000000000000000000000000000000000000000000000000000000000000000000, 12314870186600000000000000000000000000000000000000000000000000000000000000000000000000000000, 12313759904400000000000000000000000000000000000000000000000000000000000000000000000000000000, 12312661672100000000000000000000000000000000000000000000000000000000000000000000000000000000, 12311574921400000000000000000000000000000000000000000000000000000000000000000000000000000000, 12310499120600000000000000000000000000000000000000000000000000000000000000000000000000000000, 12309433771500000000000000000000000000000000000000000000000000000000000000000000000000000000, 12308378406800000000000000000000000000000000000000000000000000000000000000000000000000000000, 12307332587900000000000000000000000000000000000000000000000000000000000000000000000000000000, 12306295902400000000000000000000000000000000000000000000000000000000000000000000000000000000, 12305267962100000000000000000000000000000000000000000000000000000000000000000000000000000000, 12304248401200000000000000000000000000000000000000000000000000000000000000000000000000000000, 12303236874400000000000000000000000000000000000000000000000000000000000000000000000000000000]),
  (275725050100000, [12365834122300000000000000000000000000000000000000000000000000000000000000000000000000000000, 12362856130300000000000000000000000000000000000000000000000000000000000000000000000000000000, 12361615272400000000000000000000000000000000000000000000000000000000000000000000000000000000, 12360449940200000000000000000000000000000000000000000000000000000000000000000000000000000000, 12359132731000000000000000000000000000000000000000000000000000000000000000000000000000000000, 12357688629500000000000000000000000000000000000000000000000000000000000000000000000000000000, 12356169162200000000000000000000000000000000000000000000000000000000000000000000000000000000, 12354614639700000000000000000000000000000000000000000000000000000000000000000000000000000000, 12353051746600000000000000000000000000000000000000000000000000000000000000000000000000000000, 12351496948000000000000000000000000000000000000000000000000000000000000000000000000000000000, 12349959892900000000000000000000000000000000000000000000000000000000000000000000000000000000, 12348445893700000000000000000000000000000000000000000000000000000000000000000000000000000000, 12346957568000000000000000000000000000000000000000000000000000000000000000000000000000000000, 12345495888400000000000000000000000000000000000000000000000000000000000000000000000000000000, 12344060840400000000000000000000000000000000000000000000000000000000000000000000000000000000, 12342651832200000000000000000000000000000000000000000000000000000000000000000000000000000000, 12341267948900000000000000000000000000000000000000000000000000000000000000000000000000000000, 12339908109500000000000000000000000000000000000000000000000000000000000000000000000000000000, 12338571163400000000000000000000000000000000000000000000000000000000000000000000000000000000, 12337255949100000000000000000000000000000000000000000000000000000000000000000000000000000000, 12335961328600000000000000000000000000000000000000000000000000000000000000000000000000000000, 12334686207800000000000000000000000000000000000000000000000000000000000000000000000000000000, 12333429546600000000000000000000000000000000000000000000000000000000000000000000000000000000, 12332190364200000000000000000000000000000000000000000000000000000000000000000000000000000000, 12330967739500000000000000000000000000000000000000000000000000000000000000000000000000000000, 12329760810500000000000000000000000000000000000000000000000000000000000000000000000000000000, 12328568771800000000000000000000000000000000000000000000000000000000000000000000000000000000, 12327390871300000000000000000000000000000000000000000000000000000000000000000000000000000000, 12326226407300000000000000000000000000000000000000000000000000000000000000000000000000000000, 12325074724300000000000000000000000000000000000000000000000000000000000000000000000000000000, 12323935210400000000000000000000000000000000000000000000000000000000000000000000000000000000, 12322807293300000000000000000000000000000000000000000000000000000000000000000000000000000000, 12321690437500000000000000000000000000000000000000000000000000000000000000000000000000000000, 12320584141600000000000000000000000000000000000000000000000000000000000000000000000000000000, 12319487935100000000000000000000000000000000000000000000000000000000000000000000000000000000, 12318401376500000000000000000000000000000000000000000000000000000000000000000000000000000000, 12317324050500000000000000000000000000000000000000000000000000000000000000000000000000000000, 12316255566600000000000000000000000000000000000000000000000000000000000000000000000000000000, 12315195556600000000000000000000000000000000000000000000000000000000000000000000000000000000, 12314143673200000000000000000000000000000000000000000000000000000000000000000000000000000000]),
  (277829058116000, [12379338835900000000000000000000000000000000000000000000000000000000000000000000000000000000, 12376296677800000000000000000000000000000000000000000000000000000000000000000000000000000000, 12375000798200000000000000000000000000000000000000000000000000000000000000000000000000000000, 12373784716300000000000000000000000000000000000000000000000000000000000000000000000000000000, 12372418867900000000000000000000000000000000000000000000000000000000000000000000000000000000, 12370927334000000000000000000000000000000000000000000000000000000000000000000000000000000000, 12369361304300000000000000000000000000000000000000000000000000000000000000000000000000000000, 12367760951100000000000000000000000000000000000000000000000000000000000000000000000000000000, 12366152871200000000000000000000000000000000000000000000000000000000000000000000000000000000, 12364553450500000000000000000000000000000000000000000000000000000000000000000000000000000000, 12362972263100000000000000000000000000000000000000000000000000000000000000000000000000000000, 12361414553300000000000000000000000000000000000000000000000000000000000000000000000000000000, 12359882880800000000000000000000000000000000000000000000000000000000000000000000000000000000, 12358378170500000000000000000000000000000000000000000000000000000000000000000000000000000000, 12356900369500000000000000000000000000000000000000000000000000000000000000000000000000000000, 12355448855400000000000000000000000000000000000000000000000000000000000000000000000000000000, 12354022689400000000000000000000000000000000000000000000000000000000000000000000000000000000, 12352620771100000000000000000000000000000000000000000000000000000000000000000000000000000000, 12351241934500000000000000000000000000000000000000000000000000000000000000000000000000000000, 12349885005000000000000000000000000000000000000000000000000000000000000000000000000000000000, 12348548834000000000000000000000000000000000000000000000000000000000000000000000000000000000, 12347232318100000000000000000000000000000000000000000000000000000000000000000000000000000000, 12345934409400000000000000000000000000000000000000000000000000000000000000000000000000000000, 12344654119700000000000000000000000000000000000000000000000000000000000000000000000000000000, 12343390521700000000000000000000000000000000000000000000000000000000000000000000000000000000, 12342142747600000000000000000000000000000000000000000000000000000000000000000000000000000000, 12340909986700000000000000000000000000000000000000000000000000000000000000000000000000000000, 12339691482000000000000000000000000000000000000000000000000000000000000000000000000000000000, 12338486527200000000000000000000000000000000000000000000000000000000000000000000000000000000, 12337294462700000000000000000000000000000000000000000000000000000000000000000000000000000000, 12336114672600000000000000000000000000000000000000000000000000000000000000000000000000000000, 12334946580900000000000000000000000000000000000000000000000000000000000000000000000000000000, 12333789648800000000000000000000000000000000000000000000000000000000000000000000000000000000, 12332643371500000000000000000000000000000000000000000000000000000000000000000000000000000000, 12331507275600000000000000000000000000000000000000000000000000000000000000000000000000000000, 12330380916800000000000000000000000000000000000000000000000000000000000000000000000000000000, 12329263877200000000000000000000000000000000000000000000000000000000000000000000000000000000, 12328155763800000000000000000000000000000000000000000000000000000000000000000000000000000000, 12327056206100000000000000000000000000000000000000000000000000000000000000000000000000000000, 12325964854700000000000000000000000000000000000000000000000000000000000000000000000000000000]),
  (279933066132000, [12393668992100000000000000000000000000000000000000000000000000000000000000000000000000000000, 12390561469700000000000000000000000000000000000000000000000000000000000000000000000000000000, 12389208363300000000000000000000000000000000000000000000000000000000000000000000000000000000, 12387940164400000000000000000000000000000000000000000000000000000000000000000000000000000000, 12386525306000000000000000000000000000000000000000000000000000000000000000000000000000000000, 12384986705000000000000000000000000000000000000000000000000000000000000000000000000000000000, 12383374938200000000000000000000000000000000000000000000000000000000000000000000000000000000, 12381729837900000000000000000000000000000000000000000000000000000000000000000000000000000000, 12380077785800000000000000000000000000000000000000000000000000000000000000000000000000000000, 12378435015000000000000000000000000000000000000000000000000000000000000000000000000000000000, 12376810984400000000000000000000000000000000000000000000000000000000000000000000000000000000, 12375210849400000000000000000000000000000000000000000000000000000000000000000000000000000000, 12373637101700000000000000000000000000000000000000000000000000000000000000000000000000000000, 12372090613900000000000000000000000000000000000000000000000000000000000000000000000000000000, 12370571293200000000000000000000000000000000000000000000000000000000000000000000000000000000, 12369078486900000000000000000000000000000000000000000000000000000000000000000000000000000000, 12367611232400000000000000000000000000000000000000000000000000000000000000000000000000000000, 12366168411300000000000000000000000000000000000000000000000000000000000000000000000000000000, 12364748842600000000000000000000000000000000000000000000000000000000000000000000000000000000, 12363351340200000000000000000000000000000000000000000000000000000000000000000000000000000000, 12361974745400000000000000000000000000000000000000000000000000000000000000000000000000000000, 12360617946400000000000000000000000000000000000000000000000000000000000000000000000000000000, 12359279888000000000000000000000000000000000000000000000000000000000000000000000000000000000, 12357959575600000000000000000000000000000000000000000000000000000000000000000000000000000000, 12356656075900000000000000000000000000000000000000000000000000000000000000000000000000000000, 12355368515800000000000000000000000000000000000000000000000000000000000000000000000000000000, 12354096079500000000000000000000000000000000000000000000000000000000000000000000000000000000, 12352838005700000000000000000000000000000000000000000000000000000000000000000000000000000000, 12351593583600000000000000000000000000000000000000000000000000000000000000000000000000000000, 12350362149800000000000000000000000000000000000000000000000000000000000000000000000000000000, 12349143084400000000000000000000000000000000000000000000000000000000000000000000000000000000, 12347935807900000000000000000000000000000000000000000000000000000000000000000000000000000000, 12346739778200000000000000000000000000000000000000000000000000000000000000000000000000000000, 12345554487500000000000000000000000000000000000000000000000000000000000000000000000000000000, 12344379459300000000000000000000000000000000000000000000000000000000000000000000000000000000, 12343214246600000000000000000000000000000000000000000000000000000000000000000000000000000000, 12342058428900000000000000000000000000000000000000000000000000000000000000000000000000000000, 12340911610800000000000000000000000000000000000000000000000000000000000000000000000000000000, 12339773419600000000000000000000000000000000000000000000000000000000000000000000000000000000, 12338643503600000000000000000000000000000000000000000000000000000000000000000000000000000000]),
  (282037074148000, [12408743491200000000000000000000000000000000000000000000000000000000000000000000000000000000, 12405582648500000000000000000000000000000000000000000000000000000000000000000000000000000000, 12404177746300000000000000000000000000000000000000000000000000000000000000000000000000000000, 12402859936300000000000000000000000000000000000000000000000000000000000000000000000000000000, 12401397529400000000000000000000000000000000000000000000000000000000000000000000000000000000, 12399813047400000000000000000000000000000000000000000000000000000000000000000000000000000000, 12398156691400000000000000000000000000000000000000000000000000000000000000000000000000000000, 12396467998100000000000000000000000000000000000000000000000000000000000000000000000000000000, 12394773129400000000000000000000000000000000000000000000000000000000000000000000000000000000, 12393088156700000000000000000000000000000000000000000000000000000000000000000000000000000000, 12391422419600000000000000000000000000000000000000000000000000000000000000000000000000000000, 12389780985100000000000000000000000000000000000000000000000000000000000000000000000000000000, 12388166278200000000000000000000000000000000000000000000000000000000000000000000000000000000, 12386579121200000000000000000000000000000000000000000000000000000000000000000000000000000000, 12385019382800000000000000000000000000000000000000000000000000000000000000000000000000000000, 12383486380400000000000000000000000000000000000000000000000000000000000000000000000000000000, 12381979128300000000000000000000000000000000000000000000000000000000000000000000000000000000, 12380496489200000000000000000000000000000000000000000000000000000000000000000000000000000000, 12379037267500000000000000000000000000000000000000000000000000000000000000000000000000000000, 12377600264600000000000000000000000000000000000000000000000000000000000000000000000000000000, 12376184311600000000000000000000000000000000000000000000000000000000000000000000000000000000, 12374788287900000000000000000000000000000000000000000000000000000000000000000000000000000000, 12373411130600000000000000000000000000000000000000000000000000000000000000000000000000000000, 12372051838300000000000000000000000000000000000000000000000000000000000000000000000000000000, 12370709471600000000000000000000000000000000000000000000000000000000000000000000000000000000, 12369383151900000000000000000000000000000000000000000000000000000000000000000000000000000000, 12368072058300000000000000000000000000000000000000000000000000000000000000000000000000000000, 12366775424800000000000000000000000000000000000000000000000000000000000000000000000000000000, 12365492536100000000000000000000000000000000000000000000000000000000000000000000000000000000, 12364222724800000000000000000000000000000000000000000000000000000000000000000000000000000000, 12362965367200000000000000000000000000000000000000000000000000000000000000000000000000000000, 12361719880300000000000000000000000000000000000000000000000000000000000000000000000000000000, 12360485718600000000000000000000000000000000000000000000000000000000000000000000000000000000, 12359262370900000000000000000000000000000000000000000000000000000000000000000000000000000000, 12358049358100000000000000000000000000000000000000000000000000000000000000000000000000000000, 12356846230300000000000000000000000000000000000000000000000000000000000000000000000000000000, 12355652564400000000000000000000000000000000000000000000000000000000000000000000000000000000, 12354467962500000000000000000000000000000000000000000000000000000000000000000000000000000000, 12353292049600000000000000000000000000000000000000000000000000000000000000000000000000000000, 12352124472000000000000000000000000000000000000000000000000000000000000000000000000000000000]),
  (284141082164000, [12424509015300000000000000000000000000000000000000000000000000000000000000000000000000000000, 12421302590400000000000000000000000000000000000000000000000000000000000000000000000000000000, 12419852760300000000000000000000000000000000000000000000000000000000000000000000000000000000, 12418489677200000000000000000000000000000000000000000000000000000000000000000000000000000000, 12416982484700000000000000000000000000000000000000000000000000000000000000000000000000000000, 12415354081800000000000000000000000000000000000000000000000000000000000000000000000000000000, 12413654681600000000000000000000000000000000000000000000000000000000000000000000000000000000, 12411923706400000000000000000000000000000000000000000000000000000000000000000000000000000000, 12410187190600000000000000000000000000000000000000000000000000000000000000000000000000000000, 12408461098600000000000000000000000000000000000000000000000000000000000000000000000000000000, 12406754686500000000000000000000000000000000000000000000000000000000000000000000000000000000, 12405072956000000000000000000000000000000000000000000000000000000000000000000000000000000000, 12403418280900000000000000000000000000000000000000000000000000000000000000000000000000000000, 12401791442100000000000000000000000000000000000000000000000000000000000000000000000000000000, 12400192274600000000000000000000000000000000000000000000000000000000000000000000000000000000, 12398620068400000000000000000000000000000000000000000000000000000000000000000000000000000000, 12397073814600000000000000000000000000000000000000000000000000000000000000000000000000000000, 12395552357300000000000000000000000000000000000000000000000000000000000000000000000000000000, 12394054484600000000000000000000000000000000000000000000000000000000000000000000000000000000, 12392578984300000000000000000000000000000000000000000000000000000000000000000000000000000000, 12391124676000000000000000000000000000000000000000000000000000000000000000000000000000000000, 12389690429200000000000000000000000000000000000000000000000000000000000000000000000000000000, 12388275172100000000000000000000000000000000000000000000000000000000000000000000000000000000, 12386877895500000000000000000000000000000000000000000000000000000000000000000000000000000000, 12385497653300000000000000000000000000000000000000000000000000000000000000000000000000000000, 12384133560500000000000000000000000000000000000000000000000000000000000000000000000000000000, 12382784790800000000000000000000000000000000000000000000000000000000000000000000000000000000, 12381450572700000000000000000000000000000000000000000000000000000000000000000000000000000000, 12380130186600000000000000000000000000000000000000000000000000000000000000000000000000000000, 12378822960400000000000000000000000000000000000000000000000000000000000000000000000000000000, 12377528266500000000000000000000000000000000000000000000000000000000000000000000000000000000, 12376245518200000000000000000000000000000000000000000000000000000000000000000000000000000000, 12374974166300000000000000000000000000000000000000000000000000000000000000000000000000000000, 12373713696500000000000000000000000000000000000000000000000000000000000000000000000000000000, 12372463626600000000000000000000000000000000000000000000000000000000000000000000000000000000, 12371223503800000000000000000000000000000000000000000000000000000000000000000000000000000000, 12369992902500000000000000000000000000000000000000000000000000000000000000000000000000000000, 12368771422200000000000000000000000000000000000000000000000000000000000000000000000000000000, 12367558685700000000000000000000000000000000000000000000000000000000000000000000000000000000, 12366354337000000000000000000000000000000000000000000000000000000000000000000000000000000000]),
  (286245090180000, [12440925989500000000000000000000000000000000000000000000000000000000000000000000000000000000, 12437674812500000000000000000000000000000000000000000000000000000000000000000000000000000000, 12436183404500000000000000000000000000000000000000000000000000000000000000000000000000000000, 12434778446300000000000000000000000000000000000000000000000000000000000000000000000000000000, 12433229275100000000000000000000000000000000000000000000000000000000000000000000000000000000, 12431559161300000000000000000000000000000000000000000000000000000000000000000000000000000000, 12429818459900000000000000000000000000000000000000000000000000000000000000000000000000000000, 12428046615500000000000000000000000000000000000000000000000000000000000000000000000000000000, 12426269646600000000000000000000000000000000000000000000000000000000000000000000000000000000, 12424503492400000000000000000000000000000000000000000000000000000000000000000000000000000000, 12422757382100000000000000000000000000000000000000000000000000000000000000000000000000000000, 12421036289600000000000000000000000000000000000000000000000000000000000000000000000000000000, 12419342560800000000000000000000000000000000000000000000000000000000000000000000000000000000, 12417676949300000000000000000000000000000000000000000000000000000000000000000000000000000000, 12416039264500000000000000000000000000000000000000000000000000000000000000000000000000000000, 12414428772200000000000000000000000000000000000000000000000000000000000000000000000000000000, 12412844442200000000000000000000000000000000000000000000000000000000000000000000000000000000, 12411285099000000000000000000000000000000000000000000000000000000000000000000000000000000000, 12409749513700000000000000000000000000000000000000000000000000000000000000000000000000000000, 12408236459400000000000000000000000000000000000000000000000000000000000000000000000000000000, 12406744742500000000000000000000000000000000000000000000000000000000000000000000000000000000, 12405273220900000000000000000000000000000000000000000000000000000000000000000000000000000000, 12403820812800000000000000000000000000000000000000000000000000000000000000000000000000000000, 12402386500200000000000000000000000000000000000000000000000000000000000000000000000000000000, 12400969328900000000000000000000000000000000000000000000000000000000000000000000000000000000, 12399568406900000000000000000000000000000000000000000000000000000000000000000000000000000000, 12398182901500000000000000000000000000000000000000000000000000000000000000000000000000000000, 12396812035500000000000000000000000000000000000000000000000000000000000000000000000000000000, 12395455084000000000000000000000000000000000000000000000000000000000000000000000000000000000, 12394111370300000000000000000000000000000000000000000000000000000000000000000000000000000000, 12392780262200000000000000000000000000000000000000000000000000000000000000000000000000000000, 12391461169000000000000000000000000000000000000000000000000000000000000000000000000000000000, 12390153538000000000000000000000000000000000000000000000000000000000000000000000000000000000, 12388856851500000000000000000000000000000000000000000000000000000000000000000000000000000000, 12387570623900000000000000000000000000000000000000000000000000000000000000000000000000000000, 12386294399500000000000000000000000000000000000000000000000000000000000000000000000000000000, 12385027750100000000000000000000000000000000000000000000000000000000000000000000000000000000, 12383770272600000000000000000000000000000000000000000000000000000000000000000000000000000000, 12382521587400000000000000000000000000000000000000000000000000000000000000000000000000000000, 12381281336400000000000000000000000000000000000000000000000000000000000000000000000000000000]),
  (288349098196000, [12457955196000000000000000000000000000000000000000000000000000000000000000000000000000000000, 12454656992400000000000000000000000000000000000000000000000000000000000000000000000000000000, 12453123690800000000000000000000000000000000000000000000000000000000000000000000000000000000, 12451678338900000000000000000000000000000000000000000000000000000000000000000000000000000000, 12450089224400000000000000000000000000000000000000000000000000000000000000000000000000000000, 12448379336300000000000000000000000000000000000000000000000000000000000000000000000000000000, 12446598988100000000000000000000000000000000000000000000000000000000000000000000000000000000, 12444787660300000000000000000000000000000000000000000000000000000000000000000000000000000000, 12442971422700000000000000000000000000000000000000000000000000000000000000000000000000000000, 12441166255500000000000000000000000000000000000000000000000000000000000000000000000000000000, 12439381411600000000000000000000000000000000000000000000000000000000000000000000000000000000, 12437621872800000000000000000000000000000000000000000000000000000000000000000000000000000000, 12435889980200000000000000000000000000000000000000000000000000000000000000000000000000000000, 12434186474900000000000000000000000000000000000000000000000000000000000000000000000000000000, 12432511149000000000000000000000000000000000000000000000000000000000000000000000000000000000, 12430863249200000000000000000000000000000000000000000000000000000000000000000000000000000000, 12429241726000000000000000000000000000000000000000000000000000000000000000000000000000000000, 12427645385100000000000000000000000000000000000000000000000000000000000000000000000000000000, 12426072980700000000000000000000000000000000000000000000000000000000000000000000000000000000, 12424523269900000000000000000000000000000000000000000000000000000000000000000000000000000000, 12422995045000000000000000000000000000000000000000000000000000000000000000000000000000000000, 12421487151500000000000000000000000000000000000000000000000000000000000000000000000000000000, 12419998496200000000000000000000000000000000000000000000000000000000000000000000000000000000, 12418528051300000000000000000000000000000000000000000000000000000000000000000000000000000000, 12417074853700000000000000000000000000000000000000000000000000000000000000000000000000000000, 12415638003600000000000000000000000000000000000000000000000000000000000000000000000000000000, 12414216661200000000000000000000000000000000000000000000000000000000000000000000000000000000, 12412810043000000000000000000000000000000000000000000000000000000000000000000000000000000000, 12411417418400000000000000000000000000000000000000000000000000000000000000000000000000000000, 12410038105400000000000000000000000000000000000000000000000000000000000000000000000000000000, 12408671467400000000000000000000000000000000000000000000000000000000000000000000000000000000, 12407316909200000000000000000000000000000000000000000000000000000000000000000000000000000000, 12405973874400000000000000000000000000000000000000000000000000000000000000000000000000000000, 12404641841500000000000000000000000000000000000000000000000000000000000000000000000000000000, 12403320321800000000000000000000000000000000000000000000000000000000000000000000000000000000, 12402008856500000000000000000000000000000000000000000000000000000000000000000000000000000000, 12400707014600000000000000000000000000000000000000000000000000000000000000000000000000000000, 12399414390400000000000000000000000000000000000000000000000000000000000000000000000000000000, 12398130601900000000000000000000000000000000000000000000000000000000000000000000000000000000, 12396855288700000000000000000000000000000000000000000000000000000000000000000000000000000000]),
  (290453106212000, [12475554480300000000000000000000000000000000000000000000000000000000000000000000000000000000, 12472205559700000000000000000000000000000000000000000000000000000000000000000000000000000000, 12470628807000000000000000000000000000000000000000000000000000000000000000000000000000000000, 12469143388700000000000000000000000000000000000000000000000000000000000000000000000000000000, 12467515519700000000000000000000000000000000000000000000000000000000000000000000000000000000, 12465767258300000000000000000000000000000000000000000000000000000000000000000000000000000000, 12463948617300000000000000000000000000000000000000000000000000000000000000000000000000000000, 12462099046500000000000000000000000000000000000000000000000000000000000000000000000000000000, 12460244670000000000000000000000000000000000000000000000000000000000000000000000000000000000, 12458401531600000000000000000000000000000000000000000000000000000000000000000000000000000000, 12456578931900000000000000000000000000000000000000000000000000000000000000000000000000000000, 12454781879900000000000000000000000000000000000000000000000000000000000000000000000000000000, 12453012727300000000000000000000000000000000000000000000000000000000000000000000000000000000, 12451272213200000000000000000000000000000000000000000000000000000000000000000000000000000000, 12449560120200000000000000000000000000000000000000000000000000000000000000000000000000000000, 12447875681000000000000000000000000000000000000000000000000000000000000000000000000000000000, 12446217829800000000000000000000000000000000000000000000000000000000000000000000000000000000, 12444585355800000000000000000000000000000000000000000000000000000000000000000000000000000000, 12442976996700000000000000000000000000000000000000000000000000000000000000000000000000000000, 12441391494200000000000000000000000000000000000000000000000000000000000000000000000000000000, 12439827626500000000000000000000000000000000000000000000000000000000000000000000000000000000, 12438284226000000000000000000000000000000000000000000000000000000000000000000000000000000000, 12436760188100000000000000000000000000000000000000000000000000000000000000000000000000000000, 12435254474200000000000000000000000000000000000000000000000000000000000000000000000000000000, 12433766112200000000000000000000000000000000000000000000000000000000000000000000000000000000, 12432294193700000000000000000000000000000000000000000000000000000000000000000000000000000000, 12430837871500000000000000000000000000000000000000000000000000000000000000000000000000000000, 12429396355400000000000000000000000000000000000000000000000000000000000000000000000000000000, 12427968908800000000000000000000000000000000000000000000000000000000000000000000000000000000, 12426554844400000000000000000000000000000000000000000000000000000000000000000000000000000000, 12425153520400000000000000000000000000000000000000000000000000000000000000000000000000000000, 12423764337600000000000000000000000000000000000000000000000000000000000000000000000000000000, 12422386735100000000000000000000000000000000000000000000000000000000000000000000000000000000, 12421020188000000000000000000000000000000000000000000000000000000000000000000000000000000000, 12419664204100000000000000000000000000000000000000000000000000000000000000000000000000000000, 12418318321700000000000000000000000000000000000000000000000000000000000000000000000000000000, 12416982106800000000000000000000000000000000000000000000000000000000000000000000000000000000, 12415655151100000000000000000000000000000000000000000000000000000000000000000000000000000000, 12414337070200000000000000000000000000000000000000000000000000000000000000000000000000000000, 12413027501600000000000000000000000000000000000000000000000000000000000000000000000000000000]),
  (292557114228000, [12493675262300000000000000000000000000000000000000000000000000000000000000000000000000000000, 12490274421800000000000000000000000000000000000000000000000000000000000000000000000000000000, 12488653998200000000000000000000000000000000000000000000000000000000000000000000000000000000, 12487128786800000000000000000000000000000000000000000000000000000000000000000000000000000000, 12485462791700000000000000000000000000000000000000000000000000000000000000000000000000000000, 12483677019700000000000000000000000000000000000000000000000000000000000000000000000000000000, 12481821076700000000000000000000000000000000000000000000000000000000000000000000000000000000, 12479934304500000000000000000000000000000000000000000000000000000000000000000000000000000000, 12478042834100000000000000000000000000000000000000000000000000000000000000000000000000000000, 12476162748200000000000000000000000000000000000000000000000000000000000000000000000000000000, 12474303384800000000000000000000000000000000000000000000000000000000000000000000000000000000, 12472469779100000000000000000000000000000000000000000000000000000000000000000000000000000000, 12470664296400000000000000000000000000000000000000000000000000000000000000000000000000000000, 12468887679200000000000000000000000000000000000000000000000000000000000000000000000000000000, 12467139705300000000000000000000000000000000000000000000000000000000000000000000000000000000, 12465419598200000000000000000000000000000000000000000000000000000000000000000000000000000000, 12463726279300000000000000000000000000000000000000000000000000000000000000000000000000000000, 12462058524000000000000000000000000000000000000000000000000000000000000000000000000000000000, 12460415055600000000000000000000000000000000000000000000000000000000000000000000000000000000, 12458794601900000000000000000000000000000000000000000000000000000000000000000000000000000000, 12457195927700000000000000000000000000000000000000000000000000000000000000000000000000000000, 12455617852900000000000000000000000000000000000000000000000000000000000000000000000000000000, 12454059261700000000000000000000000000000000000000000000000000000000000000000000000000000000, 12452519105100000000000000000000000000000000000000000000000000000000000000000000000000000000, 12450996401700000000000000000000000000000000000000000000000000000000000000000000000000000000, 12449490234600000000000000000000000000000000000000000000000000000000000000000000000000000000, 12447999749200000000000000000000000000000000000000000000000000000000000000000000000000000000, 12446524148500000000000000000000000000000000000000000000000000000000000000000000000000000000, 12445062689600000000000000000000000000000000000000000000000000000000000000000000000000000000, 12443614679900000000000000000000000000000000000000000000000000000000000000000000000000000000, 12442179472700000000000000000000000000000000000000000000000000000000000000000000000000000000, 12440756464000000000000000000000000000000000000000000000000000000000000000000000000000000000, 12439345089200000000000000000000000000000000000000000000000000000000000000000000000000000000, 12437944819600000000000000000000000000000000000000000000000000000000000000000000000000000000, 12436555159600000000000000000000000000000000000000000000000000000000000000000000000000000000, 12435175644400000000000000000000000000000000000000000000000000000000000000000000000000000000, 12433805837100000000000000000000000000000000000000000000000000000000000000000000000000000000, 12432445327000000000000000000000000000000000000000000000000000000000000000000000000000000000, 12431093727200000000000000000000000000000000000000000000000000000000000000000000000000000000, 12429750672900000000000000000000000000000000000000000000000000000000000000000000000000000000]),
  (294661122244000, [12512266164500000000000000000000000000000000000000000000000000000000000000000000000000000000, 12508817129400000000000000000000000000000000000000000000000000000000000000000000000000000000, 12507154914700000000000000000000000000000000000000000000000000000000000000000000000000000000, 12505590557200000000000000000000000000000000000000000000000000000000000000000000000000000000, 12503886803800000000000000000000000000000000000000000000000000000000000000000000000000000000, 12502064024700000000000000000000000000000000000000000000000000000000000000000000000000000000, 12500171489400000000000000000000000000000000000000000000000000000000000000000000000000000000, 12498248379900000000000000000000000000000000000000000000000000000000000000000000000000000000, 12496320765100000000000000000000000000000000000000000000000000000000000000000000000000000000, 12494404713100000000000000000000000000000000000000000000000000000000000000000000000000000000, 12492509566800000000000000000000000000000000000000000000000000000000000000000000000000000000, 12490640371000000000000000000000000000000000000000000000000000000000000000000000000000000000, 12488799497700000000000000000000000000000000000000000000000000000000000000000000000000000000, 12486987691500000000000000000000000000000000000000000000000000000000000000000000000000000000, 12485204727700000000000000000000000000000000000000000000000000000000000000000000000000000000, 12483449823100000000000000000000000000000000000000000000000000000000000000000000000000000000, 12481721889900000000000000000000000000000000000000000000000000000000000000000000000000000000, 12480019692300000000000000000000000000000000000000000000000000000000000000000000000000000000, 12478341942000000000000000000000000000000000000000000000000000000000000000000000000000000000, 12476687354400000000000000000000000000000000000000000000000000000000000000000000000000000000, 12475054682800000000000000000000000000000000000000000000000000000000000000000000000000000000, 12473442735800000000000000000000000000000000000000000000000000000000000000000000000000000000, 12471850387100000000000000000000000000000000000000000000000000000000000000000000000000000000, 12470276578200000000000000000000000000000000000000000000000000000000000000000000000000000000, 12468720318600000000000000000000000000000000000000000000000000000000000000000000000000000000, 12467180683700000000000000000000000000000000000000000000000000000000000000000000000000000000, 12465656811300000000000000000000000000000000000000000000000000000000000000000000000000000000, 12464147898000000000000000000000000000000000000000000000000000000000000000000000000000000000, 12462653195000000000000000000000000000000000000000000000000000000000000000000000000000000000, 12461172004300000000000000000000000000000000000000000000000000000000000000000000000000000000, 12459703674400000000000000000000000000000000000000000000000000000000000000000000000000000000, 12458247597000000000000000000000000000000000000000000000000000000000000000000000000000000000, 12456803203400000000000000000000000000000000000000000000000000000000000000000000000000000000, 12455369961300000000000000000000000000000000000000000000000000000000000000000000000000000000, 12453947371900000000000000000000000000000000000000000000000000000000000000000000000000000000, 12452534967300000000000000000000000000000000000000000000000000000000000000000000000000000000, 12451132307900000000000000000000000000000000000000000000000000000000000000000000000000000000, 12449738980500000000000000000000000000000000000000000000000000000000000000000000000000000000, 12448354595700000000000000000000000000000000000000000000000000000000000000000000000000000000, 12446978786800000000000000000000000000000000000000000000000000000000000000000000000000000000]),
  (296765130261000, [12531281271000000000000000000000000000000000000000000000000000000000000000000000000000000000, 12527789686000000000000000000000000000000000000000000000000000000000000000000000000000000000, 12526088143200000000000000000000000000000000000000000000000000000000000000000000000000000000, 12524485470900000000000000000000000000000000000000000000000000000000000000000000000000000000, 12522744329900000000000000000000000000000000000000000000000000000000000000000000000000000000, 12520884956500000000000000000000000000000000000000000000000000000000000000000000000000000000, 12518956413500000000000000000000000000000000000000000000000000000000000000000000000000000000, 12516997707600000000000000000000000000000000000000000000000000000000000000000000000000000000, 12515034793300000000000000000000000000000000000000000000000000000000000000000000000000000000, 12513083676000000000000000000000000000000000000000000000000000000000000000000000000000000000, 12511153668900000000000000000000000000000000000000000000000000000000000000000000000000000000, 12509249804000000000000000000000000000000000000000000000000000000000000000000000000000000000, 12507374448600000000000000000000000000000000000000000000000000000000000000000000000000000000, 12505528343700000000000000000000000000000000000000000000000000000000000000000000000000000000, 12503711260300000000000000000000000000000000000000000000000000000000000000000000000000000000, 12501922408900000000000000000000000000000000000000000000000000000000000000000000000000000000, 12500160693900000000000000000000000000000000000000000000000000000000000000000000000000000000, 12498424870500000000000000000000000000000000000000000000000000000000000000000000000000000000, 12496713640100000000000000000000000000000000000000000000000000000000000000000000000000000000, 12495025708300000000000000000000000000000000000000000000000000000000000000000000000000000000, 12493359817900000000000000000000000000000000000000000000000000000000000000000000000000000000, 12491714767900000000000000000000000000000000000000000000000000000000000000000000000000000000, 12490089422600000000000000000000000000000000000000000000000000000000000000000000000000000000, 12488482714900000000000000000000000000000000000000000000000000000000000000000000000000000000, 12486893646100000000000000000000000000000000000000000000000000000000000000000000000000000000, 12485321284400000000000000000000000000000000000000000000000000000000000000000000000000000000, 12483764760800000000000000000000000000000000000000000000000000000000000000000000000000000000, 12482223265900000000000000000000000000000000000000000000000000000000000000000000000000000000, 12480696045300000000000000000000000000000000000000000000000000000000000000000000000000000000, 12479182395800000000000000000000000000000000000000000000000000000000000000000000000000000000, 12477681661700000000000000000000000000000000000000000000000000000000000000000000000000000000, 12476193230300000000000000000000000000000000000000000000000000000000000000000000000000000000, 12474716529200000000000000000000000000000000000000000000000000000000000000000000000000000000, 12473251022700000000000000000000000000000000000000000000000000000000000000000000000000000000, 12471796208800000000000000000000000000000000000000000000000000000000000000000000000000000000, 12470351616900000000000000000000000000000000000000000000000000000000000000000000000000000000, 12468916804700000000000000000000000000000000000000000000000000000000000000000000000000000000, 12467491356400000000000000000000000000000000000000000000000000000000000000000000000000000000, 12466074880700000000000000000000000000000000000000000000000000000000000000000000000000000000, 12464667008600000000000000000000000000000000000000000000000000000000000000000000000000000000]),
  (298869138277000, [12550681866900000000000000000000000000000000000000000000000000000000000000000000000000000000, 12547150744300000000000000000000000000000000000000000000000000000000000000000000000000000000, 12545411319600000000000000000000000000000000000000000000000000000000000000000000000000000000, 12543771190000000000000000000000000000000000000000000000000000000000000000000000000000000000, 12541993262500000000000000000000000000000000000000000000000000000000000000000000000000000000, 12540097830800000000000000000000000000000000000000000000000000000000000000000000000000000000, 12538133852300000000000000000000000000000000000000000000000000000000000000000000000000000000, 12536140194700000000000000000000000000000000000000000000000000000000000000000000000000000000, 12534142697400000000000000000000000000000000000000000000000000000000000000000000000000000000, 12532157286700000000000000000000000000000000000000000000000000000000000000000000000000000000, 12530193226100000000000000000000000000000000000000000000000000000000000000000000000000000000, 12528255518100000000000000000000000000000000000000000000000000000000000000000000000000000000, 12526346511700000000000000000000000000000000000000000000000000000000000000000000000000000000, 12524466935500000000000000000000000000000000000000000000000000000000000000000000000000000000, 12522616550500000000000000000000000000000000000000000000000000000000000000000000000000000000, 12520794558100000000000000000000000000000000000000000000000000000000000000000000000000000000, 12518999853600000000000000000000000000000000000000000000000000000000000000000000000000000000, 12517231182800000000000000000000000000000000000000000000000000000000000000000000000000000000, 12515487237700000000000000000000000000000000000000000000000000000000000000000000000000000000, 12513766714700000000000000000000000000000000000000000000000000000000000000000000000000000000, 12512068347300000000000000000000000000000000000000000000000000000000000000000000000000000000, 12510390925900000000000000000000000000000000000000000000000000000000000000000000000000000000, 12508733306400000000000000000000000000000000000000000000000000000000000000000000000000000000, 12507094414100000000000000000000000000000000000000000000000000000000000000000000000000000000, 12505473243100000000000000000000000000000000000000000000000000000000000000000000000000000000, 12503868854900000000000000000000000000000000000000000000000000000000000000000000000000000000, 12502280374700000000000000000000000000000000000000000000000000000000000000000000000000000000, 12500706987400000000000000000000000000000000000000000000000000000000000000000000000000000000, 12499147933700000000000000000000000000000000000000000000000000000000000000000000000000000000, 12497602505800000000000000000000000000000000000000000000000000000000000000000000000000000000, 12496070043700000000000000000000000000000000000000000000000000000000000000000000000000000000, 12494549931000000000000000000000000000000000000000000000000000000000000000000000000000000000, 12493041591900000000000000000000000000000000000000000000000000000000000000000000000000000000, 12491544487400000000000000000000000000000000000000000000000000000000000000000000000000000000, 12490058112800000000000000000000000000000000000000000000000000000000000000000000000000000000, 12488581994500000000000000000000000000000000000000000000000000000000000000000000000000000000, 12487115688000000000000000000000000000000000000000000000000000000000000000000000000000000000, 12485658775300000000000000000000000000000000000000000000000000000000000000000000000000000000, 12484210862700000000000000000000000000000000000000000000000000000000000000000000000000000000, 12482771579500000000000000000000000000000000000000000000000000000000000000000000000000000000]),
  (300973146293000, [12570431187200000000000000000000000000000000000000000000000000000000000000000000000000000000, 12566860029500000000000000000000000000000000000000000000000000000000000000000000000000000000, 12565083208000000000000000000000000000000000000000000000000000000000000000000000000000000000, 12563406622600000000000000000000000000000000000000000000000000000000000000000000000000000000, 12561592797100000000000000000000000000000000000000000000000000000000000000000000000000000000, 12559661981400000000000000000000000000000000000000000000000000000000000000000000000000000000, 12557663118800000000000000000000000000000000000000000000000000000000000000000000000000000000, 12555635035000000000000000000000000000000000000000000000000000000000000000000000000000000000, 12553603510700000000000000000000000000000000000000000000000000000000000000000000000000000000, 12551584412800000000000000000000000000000000000000000000000000000000000000000000000000000000, 12549586954400000000000000000000000000000000000000000000000000000000000000000000000000000000, 12547616098000000000000000000000000000000000000000000000000000000000000000000000000000000000, 12545674161600000000000000000000000000000000000000000000000000000000000000000000000000000000, 12543761849700000000000000000000000000000000000000000000000000000000000000000000000000000000, 12541878904400000000000000000000000000000000000000000000000000000000000000000000000000000000, 12540024511300000000000000000000000000000000000000000000000000000000000000000000000000000000, 12538197552100000000000000000000000000000000000000000000000000000000000000000000000000000000, 12536396760600000000000000000000000000000000000000000000000000000000000000000000000000000000, 12534620818400000000000000000000000000000000000000000000000000000000000000000000000000000000, 12532868411600000000000000000000000000000000000000000000000000000000000000000000000000000000, 12531138265100000000000000000000000000000000000000000000000000000000000000000000000000000000, 12529429160800000000000000000000000000000000000000000000000000000000000000000000000000000000, 12527739947100000000000000000000000000000000000000000000000000000000000000000000000000000000, 12526069542000000000000000000000000000000000000000000000000000000000000000000000000000000000, 12524416933600000000000000000000000000000000000000000000000000000000000000000000000000000000, 12522781177300000000000000000000000000000000000000000000000000000000000000000000000000000000, 12521161392900000000000000000000000000000000000000000000000000000000000000000000000000000000, 12519556760500000000000000000000000000000000000000000000000000000000000000000000000000000000, 12517966516300000000000000000000000000000000000000000000000000000000000000000000000000000000, 12516389948500000000000000000000000000000000000000000000000000000000000000000000000000000000, 12514826393200000000000000000000000000000000000000000000000000000000000000000000000000000000, 12513275230700000000000000000000000000000000000000000000000000000000000000000000000000000000, 12511735882000000000000000000000000000000000000000000000000000000000000000000000000000000000, 12510207805300000000000000000000000000000000000000000000000000000000000000000000000000000000, 12508690493100000000000000000000000000000000000000000000000000000000000000000000000000000000, 12507183469600000000000000000000000000000000000000000000000000000000000000000000000000000000, 12505686287800000000000000000000000000000000000000000000000000000000000000000000000000000000, 12504198527600000000000000000000000000000000000000000000000000000000000000000000000000000000, 12502719793700000000000000000000000000000000000000000000000000000000000000000000000000000000, 12501249713200000000000000000000000000000000000000000000000000000000000000000000000000000000]),
  (303077154309000, [12590491131900000000000000000000000000000000000000000000000000000000000000000000000000000000, 12586877409100000000000000000000000000000000000000000000000000000000000000000000000000000000, 12585063868000000000000000000000000000000000000000000000000000000000000000000000000000000000, 12583352068900000000000000000000000000000000000000000000000000000000000000000000000000000000, 12581503325800000000000000000000000000000000000000000000000000000000000000000000000000000000, 12579537771500000000000000000000000000000000000000000000000000000000000000000000000000000000, 12577504469600000000000000000000000000000000000000000000000000000000000000000000000000000000, 12575442337300000000000000000000000000000000000000000000000000000000000000000000000000000000, 12573377179300000000000000000000000000000000000000000000000000000000000000000000000000000000, 12571324841500000000000000000000000000000000000000000000000000000000000000000000000000000000, 12569294495000000000000000000000000000000000000000000000000000000000000000000000000000000000, 12567291055300000000000000000000000000000000000000000000000000000000000000000000000000000000, 12565316797100000000000000000000000000000000000000000000000000000000000000000000000000000000, 12563372387900000000000000000000000000000000000000000000000000000000000000000000000000000000, 12561457539000000000000000000000000000000000000000000000000000000000000000000000000000000000, 12559571411100000000000000000000000000000000000000000000000000000000000000000000000000000000, 12557712865800000000000000000000000000000000000000000000000000000000000000000000000000000000, 12555880620800000000000000000000000000000000000000000000000000000000000000000000000000000000, 12554073343500000000000000000000000000000000000000000000000000000000000000000000000000000000, 12552289709000000000000000000000000000000000000000000000000000000000000000000000000000000000, 12550528432100000000000000000000000000000000000000000000000000000000000000000000000000000000, 12548788286300000000000000000000000000000000000000000000000000000000000000000000000000000000, 12547068112400000000000000000000000000000000000000000000000000000000000000000000000000000000, 12545366822000000000000000000000000000000000000000000000000000000000000000000000000000000000, 12543683397200000000000000000000000000000000000000000000000000000000000000000000000000000000, 12542016888100000000000000000000000000000000000000000000000000000000000000000000000000000000, 12540366409700000000000000000000000000000000000000000000000000000000000000000000000000000000, 12538731137600000000000000000000000000000000000000000000000000000000000000000000000000000000, 12537110304200000000000000000000000000000000000000000000000000000000000000000000000000000000, 12535503194100000000000000000000000000000000000000000000000000000000000000000000000000000000, 12533909140000000000000000000000000000000000000000000000000000000000000000000000000000000000, 12532327519200000000000000000000000000000000000000000000000000000000000000000000000000000000, 12530757749800000000000000000000000000000000000000000000000000000000000000000000000000000000, 12529199287600000000000000000000000000000000000000000000000000000000000000000000000000000000, 12527651622600000000000000000000000000000000000000000000000000000000000000000000000000000000, 12526114276700000000000000000000000000000000000000000000000000000000000000000000000000000000, 12524586801000000000000000000000000000000000000000000000000000000000000000000000000000000000, 12523068773400000000000000000000000000000000000000000000000000000000000000000000000000000000, 12521559796800000000000000000000000000000000000000000000000000000000000000000000000000000000, 12520059496800000000000000000000000000000000000000000000000000000000000000000000000000000000]),
  (305181162325000, [12610817598000000000000000000000000000000000000000000000000000000000000000000000000000000000, 12607162695800000000000000000000000000000000000000000000000000000000000000000000000000000000, 12605314382500000000000000000000000000000000000000000000000000000000000000000000000000000000, 12603568700200000000000000000000000000000000000000000000000000000000000000000000000000000000, 12601685829500000000000000000000000000000000000000000000000000000000000000000000000000000000, 12599686000300000000000000000000000000000000000000000000000000000000000000000000000000000000, 12597618568300000000000000000000000000000000000000000000000000000000000000000000000000000000, 12595522657700000000000000000000000000000000000000000000000000000000000000000000000000000000, 12593424164500000000000000000000000000000000000000000000000000000000000000000000000000000000, 12591338943200000000000000000000000000000000000000000000000000000000000000000000000000000000, 12589276129400000000000000000000000000000000000000000000000000000000000000000000000000000000, 12587240585900000000000000000000000000000000000000000000000000000000000000000000000000000000, 12585234532200000000000000000000000000000000000000000000000000000000000000000000000000000000, 12583258586300000000000000000000000000000000000000000000000000000000000000000000000000000000, 12581312417500000000000000000000000000000000000000000000000000000000000000000000000000000000, 12579395152800000000000000000000000000000000000000000000000000000000000000000000000000000000, 12577505626700000000000000000000000000000000000000000000000000000000000000000000000000000000, 12575642535200000000000000000000000000000000000000000000000000000000000000000000000000000000, 12573804528900000000000000000000000000000000000000000000000000000000000000000000000000000000, 12571990269200000000000000000000000000000000000000000000000000000000000000000000000000000000, 12570198459900000000000000000000000000000000000000000000000000000000000000000000000000000000, 12568427865300000000000000000000000000000000000000000000000000000000000000000000000000000000, 12566677318800000000000000000000000000000000000000000000000000000000000000000000000000000000, 12564945725300000000000000000000000000000000000000000000000000000000000000000000000000000000, 12563232061200000000000000000000000000000000000000000000000000000000000000000000000000000000, 12561535371900000000000000000000000000000000000000000000000000000000000000000000000000000000, 12559854767900000000000000000000000000000000000000000000000000000000000000000000000000000000, 12558189421000000000000000000000000000000000000000000000000000000000000000000000000000000000, 12556538559900000000000000000000000000000000000000000000000000000000000000000000000000000000, 12554901466000000000000000000000000000000000000000000000000000000000000000000000000000000000, 12553277469000000000000000000000000000000000000000000000000000000000000000000000000000000000, 12551665943700000000000000000000000000000000000000000000000000000000000000000000000000000000, 12550066305500000000000000000000000000000000000000000000000000000000000000000000000000000000, 12548478007900000000000000000000000000000000000000000000000000000000000000000000000000000000, 12546900538800000000000000000000000000000000000000000000000000000000000000000000000000000000, 12545333418000000000000000000000000000000000000000000000000000000000000000000000000000000000, 12543776194900000000000000000000000000000000000000000000000000000000000000000000000000000000, 12542228445500000000000000000000000000000000000000000000000000000000000000000000000000000000, 12540689771100000000000000000000000000000000000000000000000000000000000000000000000000000000, 12539159795700000000000000000000000000000000000000000000000000000000000000000000000000000000]),
  (307285170341000, [12631365532800000000000000000000000000000000000000000000000000000000000000000000000000000000, 12627676432700000000000000000000000000000000000000000000000000000000000000000000000000000000, 12625796051100000000000000000000000000000000000000000000000000000000000000000000000000000000, 12624017541300000000000000000000000000000000000000000000000000000000000000000000000000000000, 12622101043300000000000000000000000000000000000000000000000000000000000000000000000000000000, 12620067272000000000000000000000000000000000000000000000000000000000000000000000000000000000, 12617966002600000000000000000000000000000000000000000000000000000000000000000000000000000000, 12615836616600000000000000000000000000000000000000000000000000000000000000000000000000000000, 12613705124800000000000000000000000000000000000000000000000000000000000000000000000000000000, 12611587400500000000000000000000000000000000000000000000000000000000000000000000000000000000, 12609492544400000000000000000000000000000000000000000000000000000000000000000000000000000000, 12607425361300000000000000000000000000000000000000000000000000000000000000000000000000000000, 12605388008500000000000000000000000000000000000000000000000000000000000000000000000000000000, 12603381046200000000000000000000000000000000000000000000000000000000000000000000000000000000, 12601404094500000000000000000000000000000000000000000000000000000000000000000000000000000000, 12599456240200000000000000000000000000000000000000000000000000000000000000000000000000000000, 12597536285900000000000000000000000000000000000000000000000000000000000000000000000000000000, 12595642902700000000000000000000000000000000000000000000000000000000000000000000000000000000, 12593774721800000000000000000000000000000000000000000000000000000000000000000000000000000000, 12591930389200000000000000000000000000000000000000000000000000000000000000000000000000000000, 12590108596900000000000000000000000000000000000000000000000000000000000000000000000000000000, 12588308099500000000000000000000000000000000000000000000000000000000000000000000000000000000, 12586527722500000000000000000000000000000000000000000000000000000000000000000000000000000000, 12584766364500000000000000000000000000000000000000000000000000000000000000000000000000000000, 12583022996400000000000000000000000000000000000000000000000000000000000000000000000000000000, 12581296658900000000000000000000000000000000000000000000000000000000000000000000000000000000, 12579586458400000000000000000000000000000000000000000000000000000000000000000000000000000000, 12577891563200000000000000000000000000000000000000000000000000000000000000000000000000000000, 12576211198700000000000000000000000000000000000000000000000000000000000000000000000000000000, 12574544643300000000000000000000000000000000000000000000000000000000000000000000000000000000, 12572891224200000000000000000000000000000000000000000000000000000000000000000000000000000000, 12571250313500000000000000000000000000000000000000000000000000000000000000000000000000000000, 12569621324600000000000000000000000000000000000000000000000000000000000000000000000000000000, 12568003708600000000000000000000000000000000000000000000000000000000000000000000000000000000, 12566396951500000000000000000000000000000000000000000000000000000000000000000000000000000000, 12564800571500000000000000000000000000000000000000000000000000000000000000000000000000000000, 12563214116000000000000000000000000000000000000000000000000000000000000000000000000000000000, 12561637159600000000000000000000000000000000000000000000000000000000000000000000000000000000, 12560069302000000000000000000000000000000000000000000000000000000000000000000000000000000000, 12558510165700000000000000000000000000000000000000000000000000000000000000000000000000000000]),
  (309389178357000, [12652100075200000000000000000000000000000000000000000000000000000000000000000000000000000000, 12648380482300000000000000000000000000000000000000000000000000000000000000000000000000000000, 12646469499300000000000000000000000000000000000000000000000000000000000000000000000000000000, 12644658695900000000000000000000000000000000000000000000000000000000000000000000000000000000, 12642708976600000000000000000000000000000000000000000000000000000000000000000000000000000000, 12640641715900000000000000000000000000000000000000000000000000000000000000000000000000000000, 12638507104700000000000000000000000000000000000000000000000000000000000000000000000000000000, 12636344757700000000000000000000000000000000000000000000000000000000000000000000000000000000, 12634180786600000000000000000000000000000000000000000000000000000000000000000000000000000000, 12632031078600000000000000000000000000000000000000000000000000000000000000000000000000000000, 12629904698700000000000000000000000000000000000000000000000000000000000000000000000000000000, 12627806394500000000000000000000000000000000000000000000000000000000000000000000000000000000, 12625738261100000000000000000000000000000000000000000000000000000000000000000000000000000000, 12623700800900000000000000000000000000000000000000000000000000000000000000000000000000000000, 12621693584400000000000000000000000000000000000000000000000000000000000000000000000000000000, 12619715657700000000000000000000000000000000000000000000000000000000000000000000000000000000, 12617765790900000000000000000000000000000000000000000000000000000000000000000000000000000000, 12615842629700000000000000000000000000000000000000000000000000000000000000000000000000000000, 12613944785500000000000000000000000000000000000000000000000000000000000000000000000000000000, 12612070888900000000000000000000000000000000000000000000000000000000000000000000000000000000, 12610219619800000000000000000000000000000000000000000000000000000000000000000000000000000000, 12608389723300000000000000000000000000000000000000000000000000000000000000000000000000000000, 12606580017100000000000000000000000000000000000000000000000000000000000000000000000000000000, 12604789393700000000000000000000000000000000000000000000000000000000000000000000000000000000, 12603016818700000000000000000000000000000000000000000000000000000000000000000000000000000000, 12601261328200000000000000000000000000000000000000000000000000000000000000000000000000000000, 12599522025000000000000000000000000000000000000000000000000000000000000000000000000000000000, 12597798073900000000000000000000000000000000000000000000000000000000000000000000000000000000, 12596088697200000000000000000000000000000000000000000000000000000000000000000000000000000000, 12594393170600000000000000000000000000000000000000000000000000000000000000000000000000000000, 12592710818900000000000000000000000000000000000000000000000000000000000000000000000000000000, 12591041011900000000000000000000000000000000000000000000000000000000000000000000000000000000, 12589383160800000000000000000000000000000000000000000000000000000000000000000000000000000000, 12587736714700000000000000000000000000000000000000000000000000000000000000000000000000000000, 12586101158000000000000000000000000000000000000000000000000000000000000000000000000000000000, 12584476007000000000000000000000000000000000000000000000000000000000000000000000000000000000, 12582860807400000000000000000000000000000000000000000000000000000000000000000000000000000000, 12581255132500000000000000000000000000000000000000000000000000000000000000000000000000000000, 12579658580500000000000000000000000000000000000000000000000000000000000000000000000000000000, 12578070772600000000000000000000000000000000000000000000000000000000000000000000000000000000]),
  (311493186373000, [12672987184500000000000000000000000000000000000000000000000000000000000000000000000000000000, 12669236050400000000000000000000000000000000000000000000000000000000000000000000000000000000, 12667294198700000000000000000000000000000000000000000000000000000000000000000000000000000000, 12665451412300000000000000000000000000000000000000000000000000000000000000000000000000000000, 12663469146600000000000000000000000000000000000000000000000000000000000000000000000000000000, 12661369231700000000000000000000000000000000000000000000000000000000000000000000000000000000, 12659202149800000000000000000000000000000000000000000000000000000000000000000000000000000000, 12657007682900000000000000000000000000000000000000000000000000000000000000000000000000000000, 12654812016000000000000000000000000000000000000000000000000000000000000000000000000000000000, 12652631043500000000000000000000000000000000000000000000000000000000000000000000000000000000, 12650473800000000000000000000000000000000000000000000000000000000000000000000000000000000000, 12648344985300000000000000000000000000000000000000000000000000000000000000000000000000000000, 12646246642800000000000000000000000000000000000000000000000000000000000000000000000000000000, 12644179226400000000000000000000000000000000000000000000000000000000000000000000000000000000, 12642142264800000000000000000000000000000000000000000000000000000000000000000000000000000000, 12640134769200000000000000000000000000000000000000000000000000000000000000000000000000000000, 12638155482000000000000000000000000000000000000000000000000000000000000000000000000000000000, 12636203026600000000000000000000000000000000000000000000000000000000000000000000000000000000, 12634275997000000000000000000000000000000000000000000000000000000000000000000000000000000000, 12632373010200000000000000000000000000000000000000000000000000000000000000000000000000000000, 12630492734900000000000000000000000000000000000000000000000000000000000000000000000000000000, 12628633907800000000000000000000000000000000000000000000000000000000000000000000000000000000, 12626795339500000000000000000000000000000000000000000000000000000000000000000000000000000000, 12624975916400000000000000000000000000000000000000000000000000000000000000000000000000000000, 12623174599500000000000000000000000000000000000000000000000000000000000000000000000000000000, 12621390420500000000000000000000000000000000000000000000000000000000000000000000000000000000, 12619622478600000000000000000000000000000000000000000000000000000000000000000000000000000000, 12617869935400000000000000000000000000000000000000000000000000000000000000000000000000000000, 12616132010300000000000000000000000000000000000000000000000000000000000000000000000000000000, 12614407976500000000000000000000000000000000000000000000000000000000000000000000000000000000, 12612697156200000000000000000000000000000000000000000000000000000000000000000000000000000000, 12610998917100000000000000000000000000000000000000000000000000000000000000000000000000000000, 12609312668400000000000000000000000000000000000000000000000000000000000000000000000000000000, 12607637857400000000000000000000000000000000000000000000000000000000000000000000000000000000, 12605973966500000000000000000000000000000000000000000000000000000000000000000000000000000000, 12604320510600000000000000000000000000000000000000000000000000000000000000000000000000000000, 12602677033800000000000000000000000000000000000000000000000000000000000000000000000000000000, 12601043108000000000000000000000000000000000000000000000000000000000000000000000000000000000, 12599418329900000000000000000000000000000000000000000000000000000000000000000000000000000000, 12597802319600000000000000000000000000000000000000000000000000000000000000000000000000000000]),
  (313597194389000, [12693985669100000000000000000000000000000000000000000000000000000000000000000000000000000000, 12690202098800000000000000000000000000000000000000000000000000000000000000000000000000000000, 12688228996700000000000000000000000000000000000000000000000000000000000000000000000000000000, 12686354969900000000000000000000000000000000000000000000000000000000000000000000000000000000, 12684341351100000000000000000000000000000000000000000000000000000000000000000000000000000000, 12682210078300000000000000000000000000000000000000000000000000000000000000000000000000000000, 12680011779300000000000000000000000000000000000000000000000000000000000000000000000000000000, 12677786342600000000000000000000000000000000000000000000000000000000000000000000000000000000, 12675560004200000000000000000000000000000000000000000000000000000000000000000000000000000000, 12673348667200000000000000000000000000000000000000000000000000000000000000000000000000000000, 12671161348900000000000000000000000000000000000000000000000000000000000000000000000000000000, 12669002720000000000000000000000000000000000000000000000000000000000000000000000000000000000, 12666874791500000000000000000000000000000000000000000000000000000000000000000000000000000000, 12664777986500000000000000000000000000000000000000000000000000000000000000000000000000000000, 12662711806400000000000000000000000000000000000000000000000000000000000000000000000000000000, 12660675239300000000000000000000000000000000000000000000000000000000000000000000000000000000, 12658667008500000000000000000000000000000000000000000000000000000000000000000000000000000000, 12656685721700000000000000000000000000000000000000000000000000000000000000000000000000000000, 12654729960200000000000000000000000000000000000000000000000000000000000000000000000000000000, 12652798330600000000000000000000000000000000000000000000000000000000000000000000000000000000, 12650889493100000000000000000000000000000000000000000000000000000000000000000000000000000000, 12649002177100000000000000000000000000000000000000000000000000000000000000000000000000000000, 12647135187300000000000000000000000000000000000000000000000000000000000000000000000000000000, 12645287405100000000000000000000000000000000000000000000000000000000000000000000000000000000, 12643457786700000000000000000000000000000000000000000000000000000000000000000000000000000000, 12641645360400000000000000000000000000000000000000000000000000000000000000000000000000000000, 12639849221500000000000000000000000000000000000000000000000000000000000000000000000000000000, 12638068528600000000000000000000000000000000000000000000000000000000000000000000000000000000, 12636302498500000000000000000000000000000000000000000000000000000000000000000000000000000000, 12634550401600000000000000000000000000000000000000000000000000000000000000000000000000000000, 12632811557900000000000000000000000000000000000000000000000000000000000000000000000000000000, 12631085332800000000000000000000000000000000000000000000000000000000000000000000000000000000, 12629371133700000000000000000000000000000000000000000000000000000000000000000000000000000000, 12627668405900000000000000000000000000000000000000000000000000000000000000000000000000000000, 12625976630200000000000000000000000000000000000000000000000000000000000000000000000000000000, 12624295319800000000000000000000000000000000000000000000000000000000000000000000000000000000, 12622624017300000000000000000000000000000000000000000000000000000000000000000000000000000000, 12620962293300000000000000000000000000000000000000000000000000000000000000000000000000000000, 12619309743100000000000000000000000000000000000000000000000000000000000000000000000000000000, 12617665985600000000000000000000000000000000000000000000000000000000000000000000000000000000])]
noncomputable def ttSpec6 : List (Nat × List Nat) := [
  (315701202405000, [12715054934300000000000000000000000000000000000000000000000000000000000000000000000000000000, 12711237366500000000000000000000000000000000000000000000000000000000000000000000000000000000, 12709233604600000000000000000000000000000000000000000000000000000000000000000000000000000000, 12707329778700000000000000000000000000000000000000000000000000000000000000000000000000000000, 12705286443400000000000000000000000000000000000000000000000000000000000000000000000000000000, 12703125414500000000000000000000000000000000000000000000000000000000000000000000000000000000, 12700897378600000000000000000000000000000000000000000000000000000000000000000000000000000000, 12698642293300000000000000000000000000000000000000000000000000000000000000000000000000000000, 12696386436100000000000000000000000000000000000000000000000000000000000000000000000000000000, 12694145727100000000000000000000000000000000000000000000000000000000000000000000000000000000, 12691929186300000000000000000000000000000000000000000000000000000000000000000000000000000000, 12689741479900000000000000000000000000000000000000000000000000000000000000000000000000000000, 12687584610900000000000000000000000000000000000000000000000000000000000000000000000000000000, 12685458993600000000000000000000000000000000000000000000000000000000000000000000000000000000, 12683364120600000000000000000000000000000000000000000000000000000000000000000000000000000000, 12681298971500000000000000000000000000000000000000000000000000000000000000000000000000000000, 12679262261300000000000000000000000000000000000000000000000000000000000000000000000000000000, 12677252590700000000000000000000000000000000000000000000000000000000000000000000000000000000, 12675268534000000000000000000000000000000000000000000000000000000000000000000000000000000000, 12673308691500000000000000000000000000000000000000000000000000000000000000000000000000000000, 12671371718100000000000000000000000000000000000000000000000000000000000000000000000000000000, 12669456337700000000000000000000000000000000000000000000000000000000000000000000000000000000, 12667561350500000000000000000000000000000000000000000000000000000000000000000000000000000000, 12665685633500000000000000000000000000000000000000000000000000000000000000000000000000000000, 12663828139100000000000000000000000000000000000000000000000000000000000000000000000000000000, 12661987891900000000000000000000000000000000000000000000000000000000000000000000000000000000, 12660163984000000000000000000000000000000000000000000000000000000000000000000000000000000000, 12658355571000000000000000000000000000000000000000000000000000000000000000000000000000000000, 12656561866700000000000000000000000000000000000000000000000000000000000000000000000000000000, 12654782139300000000000000000000000000000000000000000000000000000000000000000000000000000000, 12653015706300000000000000000000000000000000000000000000000000000000000000000000000000000000, 12651261930900000000000000000000000000000000000000000000000000000000000000000000000000000000, 12649520218500000000000000000000000000000000000000000000000000000000000000000000000000000000, 12647790012600000000000000000000000000000000000000000000000000000000000000000000000000000000, 12646070792200000000000000000000000000000000000000000000000000000000000000000000000000000000, 12644362069000000000000000000000000000000000000000000000000000000000000000000000000000000000, 12642663384100000000000000000000000000000000000000000000000000000000000000000000000000000000, 12640974306700000000000000000000000000000000000000000000000000000000000000000000000000000000, 12639294430800000000000000000000000000000000000000000000000000000000000000000000000000000000, 12637623374200000000000000000000000000000000000000000000000000000000000000000000000000000000]),
  (317805210421000, [12736155898600000000000000000000000000000000000000000000000000000000000000000000000000000000, 12732302715100000000000000000000000000000000000000000000000000000000000000000000000000000000, 12730269739200000000000000000000000000000000000000000000000000000000000000000000000000000000, 12728337929100000000000000000000000000000000000000000000000000000000000000000000000000000000, 12726266640800000000000000000000000000000000000000000000000000000000000000000000000000000000, 12724077496400000000000000000000000000000000000000000000000000000000000000000000000000000000, 12721821208100000000000000000000000000000000000000000000000000000000000000000000000000000000, 12719537783100000000000000000000000000000000000000000000000000000000000000000000000000000000, 12717253539000000000000000000000000000000000000000000000000000000000000000000000000000000000, 12714984426700000000000000000000000000000000000000000000000000000000000000000000000000000000, 12712739491900000000000000000000000000000000000000000000000000000000000000000000000000000000, 12710523422100000000000000000000000000000000000000000000000000000000000000000000000000000000, 12708338238000000000000000000000000000000000000000000000000000000000000000000000000000000000, 12706184367200000000000000000000000000000000000000000000000000000000000000000000000000000000, 12704061311400000000000000000000000000000000000000000000000000000000000000000000000000000000, 12701968055900000000000000000000000000000000000000000000000000000000000000000000000000000000, 12699903318800000000000000000000000000000000000000000000000000000000000000000000000000000000, 12697865701100000000000000000000000000000000000000000000000000000000000000000000000000000000, 12695853776200000000000000000000000000000000000000000000000000000000000000000000000000000000, 12693866142400000000000000000000000000000000000000000000000000000000000000000000000000000000, 12691901451500000000000000000000000000000000000000000000000000000000000000000000000000000000, 12689958424300000000000000000000000000000000000000000000000000000000000000000000000000000000, 12688035857500000000000000000000000000000000000000000000000000000000000000000000000000000000, 12686132624500000000000000000000000000000000000000000000000000000000000000000000000000000000, 12684247674300000000000000000000000000000000000000000000000000000000000000000000000000000000, 12682380028200000000000000000000000000000000000000000000000000000000000000000000000000000000, 12680528775200000000000000000000000000000000000000000000000000000000000000000000000000000000, 12678693067900000000000000000000000000000000000000000000000000000000000000000000000000000000, 12676872117400000000000000000000000000000000000000000000000000000000000000000000000000000000, 12675065189200000000000000000000000000000000000000000000000000000000000000000000000000000000, 12673271598500000000000000000000000000000000000000000000000000000000000000000000000000000000, 12671490706300000000000000000000000000000000000000000000000000000000000000000000000000000000, 12669721915900000000000000000000000000000000000000000000000000000000000000000000000000000000, 12667964669100000000000000000000000000000000000000000000000000000000000000000000000000000000, 12666218443100000000000000000000000000000000000000000000000000000000000000000000000000000000, 12664482747900000000000000000000000000000000000000000000000000000000000000000000000000000000, 12662757123300000000000000000000000000000000000000000000000000000000000000000000000000000000, 12661041136800000000000000000000000000000000000000000000000000000000000000000000000000000000, 12659334381600000000000000000000000000000000000000000000000000000000000000000000000000000000, 12657636473900000000000000000000000000000000000000000000000000000000000000000000000000000000]),
  (319909218437000, [12757247649100000000000000000000000000000000000000000000000000000000000000000000000000000000, 12753361031500000000000000000000000000000000000000000000000000000000000000000000000000000000, 12751300921000000000000000000000000000000000000000000000000000000000000000000000000000000000, 12749342916700000000000000000000000000000000000000000000000000000000000000000000000000000000, 12747245287700000000000000000000000000000000000000000000000000000000000000000000000000000000, 12745029492700000000000000000000000000000000000000000000000000000000000000000000000000000000, 12742746258300000000000000000000000000000000000000000000000000000000000000000000000000000000, 12740435634200000000000000000000000000000000000000000000000000000000000000000000000000000000, 12738123985300000000000000000000000000000000000000000000000000000000000000000000000000000000, 12735827312600000000000000000000000000000000000000000000000000000000000000000000000000000000, 12733554711600000000000000000000000000000000000000000000000000000000000000000000000000000000, 12731310916100000000000000000000000000000000000000000000000000000000000000000000000000000000, 12729097986300000000000000000000000000000000000000000000000000000000000000000000000000000000, 12726916381100000000000000000000000000000000000000000000000000000000000000000000000000000000, 12724765626100000000000000000000000000000000000000000000000000000000000000000000000000000000, 12722644723300000000000000000000000000000000000000000000000000000000000000000000000000000000, 12720552401900000000000000000000000000000000000000000000000000000000000000000000000000000000, 12718487269500000000000000000000000000000000000000000000000000000000000000000000000000000000, 12716447902600000000000000000000000000000000000000000000000000000000000000000000000000000000, 12714432900300000000000000000000000000000000000000000000000000000000000000000000000000000000, 12712440913600000000000000000000000000000000000000000000000000000000000000000000000000000000, 12710470661400000000000000000000000000000000000000000000000000000000000000000000000000000000, 12708520937700000000000000000000000000000000000000000000000000000000000000000000000000000000, 12706590613100000000000000000000000000000000000000000000000000000000000000000000000000000000, 12704678633400000000000000000000000000000000000000000000000000000000000000000000000000000000, 12702784016600000000000000000000000000000000000000000000000000000000000000000000000000000000, 12700905848700000000000000000000000000000000000000000000000000000000000000000000000000000000, 12699043279400000000000000000000000000000000000000000000000000000000000000000000000000000000, 12697195517100000000000000000000000000000000000000000000000000000000000000000000000000000000, 12695361824500000000000000000000000000000000000000000000000000000000000000000000000000000000, 12693541514600000000000000000000000000000000000000000000000000000000000000000000000000000000, 12691733946100000000000000000000000000000000000000000000000000000000000000000000000000000000, 12689938520300000000000000000000000000000000000000000000000000000000000000000000000000000000, 12688154676900000000000000000000000000000000000000000000000000000000000000000000000000000000, 12686381891600000000000000000000000000000000000000000000000000000000000000000000000000000000, 12684619672700000000000000000000000000000000000000000000000000000000000000000000000000000000, 12682867558500000000000000000000000000000000000000000000000000000000000000000000000000000000, 12681125115200000000000000000000000000000000000000000000000000000000000000000000000000000000, 12679391934500000000000000000000000000000000000000000000000000000000000000000000000000000000, 12677667631700000000000000000000000000000000000000000000000000000000000000000000000000000000]),
  (322013226453000, [12778291891100000000000000000000000000000000000000000000000000000000000000000000000000000000, 12774376547800000000000000000000000000000000000000000000000000000000000000000000000000000000, 12772291559500000000000000000000000000000000000000000000000000000000000000000000000000000000, 12770308963000000000000000000000000000000000000000000000000000000000000000000000000000000000, 12768186348500000000000000000000000000000000000000000000000000000000000000000000000000000000, 12765945084900000000000000000000000000000000000000000000000000000000000000000000000000000000, 12763635927200000000000000000000000000000000000000000000000000000000000000000000000000000000, 12761298982100000000000000000000000000000000000000000000000000000000000000000000000000000000, 12758960684300000000000000000000000000000000000000000000000000000000000000000000000000000000, 12756637110900000000000000000000000000000000000000000000000000000000000000000000000000000000, 12754337431400000000000000000000000000000000000000000000000000000000000000000000000000000000, 12752066446000000000000000000000000000000000000000000000000000000000000000000000000000000000, 12749826269700000000000000000000000000000000000000000000000000000000000000000000000000000000, 12747617404800000000000000000000000000000000000000000000000000000000000000000000000000000000, 12745439408900000000000000000000000000000000000000000000000000000000000000000000000000000000, 12743291306700000000000000000000000000000000000000000000000000000000000000000000000000000000, 12741171842500000000000000000000000000000000000000000000000000000000000000000000000000000000, 12739079633300000000000000000000000000000000000000000000000000000000000000000000000000000000, 12737013261000000000000000000000000000000000000000000000000000000000000000000000000000000000, 12734971326600000000000000000000000000000000000000000000000000000000000000000000000000000000, 12732952481200000000000000000000000000000000000000000000000000000000000000000000000000000000, 12730955442300000000000000000000000000000000000000000000000000000000000000000000000000000000, 12728979001700000000000000000000000000000000000000000000000000000000000000000000000000000000, 12727022027100000000000000000000000000000000000000000000000000000000000000000000000000000000, 12725083461300000000000000000000000000000000000000000000000000000000000000000000000000000000, 12723162319200000000000000000000000000000000000000000000000000000000000000000000000000000000, 12721257684000000000000000000000000000000000000000000000000000000000000000000000000000000000, 12719368702000000000000000000000000000000000000000000000000000000000000000000000000000000000, 12717494579000000000000000000000000000000000000000000000000000000000000000000000000000000000, 12715634575300000000000000000000000000000000000000000000000000000000000000000000000000000000, 12713788001100000000000000000000000000000000000000000000000000000000000000000000000000000000, 12711954213300000000000000000000000000000000000000000000000000000000000000000000000000000000, 12710132610800000000000000000000000000000000000000000000000000000000000000000000000000000000, 12708322631600000000000000000000000000000000000000000000000000000000000000000000000000000000, 12706523749500000000000000000000000000000000000000000000000000000000000000000000000000000000, 12704735471300000000000000000000000000000000000000000000000000000000000000000000000000000000, 12702957333800000000000000000000000000000000000000000000000000000000000000000000000000000000, 12701188901900000000000000000000000000000000000000000000000000000000000000000000000000000000, 12699429765900000000000000000000000000000000000000000000000000000000000000000000000000000000, 12697679539900000000000000000000000000000000000000000000000000000000000000000000000000000000]),
  (324117234469000, [12799256750800000000000000000000000000000000000000000000000000000000000000000000000000000000, 12795314595100000000000000000000000000000000000000000000000000000000000000000000000000000000, 12793206374200000000000000000000000000000000000000000000000000000000000000000000000000000000, 12791200486100000000000000000000000000000000000000000000000000000000000000000000000000000000, 12789053922400000000000000000000000000000000000000000000000000000000000000000000000000000000, 12786788029800000000000000000000000000000000000000000000000000000000000000000000000000000000, 12784453641100000000000000000000000000000000000000000000000000000000000000000000000000000000, 12782090961900000000000000000000000000000000000000000000000000000000000000000000000000000000, 12779726533200000000000000000000000000000000000000000000000000000000000000000000000000000000, 12777376536300000000000000000000000000000000000000000000000000000000000000000000000000000000, 12775050234600000000000000000000000000000000000000000000000000000000000000000000000000000000, 12772752506700000000000000000000000000000000000000000000000000000000000000000000000000000000, 12770485529500000000000000000000000000000000000000000000000000000000000000000000000000000000, 12768249852000000000000000000000000000000000000000000000000000000000000000000000000000000000, 12766045065300000000000000000000000000000000000000000000000000000000000000000000000000000000, 12763870217000000000000000000000000000000000000000000000000000000000000000000000000000000000, 12761724066600000000000000000000000000000000000000000000000000000000000000000000000000000000, 12759605240100000000000000000000000000000000000000000000000000000000000000000000000000000000, 12757512324200000000000000000000000000000000000000000000000000000000000000000000000000000000, 12755443921800000000000000000000000000000000000000000000000000000000000000000000000000000000, 12753398683800000000000000000000000000000000000000000000000000000000000000000000000000000000, 12751375326100000000000000000000000000000000000000000000000000000000000000000000000000000000, 12749372637900000000000000000000000000000000000000000000000000000000000000000000000000000000, 12747389484300000000000000000000000000000000000000000000000000000000000000000000000000000000, 12745424805000000000000000000000000000000000000000000000000000000000000000000000000000000000, 12743477611700000000000000000000000000000000000000000000000000000000000000000000000000000000, 12741546984300000000000000000000000000000000000000000000000000000000000000000000000000000000, 12739632066600000000000000000000000000000000000000000000000000000000000000000000000000000000, 12737732061500000000000000000000000000000000000000000000000000000000000000000000000000000000, 12735846226500000000000000000000000000000000000000000000000000000000000000000000000000000000, 12733973869700000000000000000000000000000000000000000000000000000000000000000000000000000000, 12732114345500000000000000000000000000000000000000000000000000000000000000000000000000000000, 12730267050900000000000000000000000000000000000000000000000000000000000000000000000000000000, 12728431422200000000000000000000000000000000000000000000000000000000000000000000000000000000, 12726606931300000000000000000000000000000000000000000000000000000000000000000000000000000000, 12724793083300000000000000000000000000000000000000000000000000000000000000000000000000000000, 12722989413800000000000000000000000000000000000000000000000000000000000000000000000000000000, 12721195486000000000000000000000000000000000000000000000000000000000000000000000000000000000, 12719410889200000000000000000000000000000000000000000000000000000000000000000000000000000000, 12717635236200000000000000000000000000000000000000000000000000000000000000000000000000000000]),
  (326221242485000, [12820110445500000000000000000000000000000000000000000000000000000000000000000000000000000000, 12816140914000000000000000000000000000000000000000000000000000000000000000000000000000000000, 12814010202400000000000000000000000000000000000000000000000000000000000000000000000000000000, 12811981768400000000000000000000000000000000000000000000000000000000000000000000000000000000, 12809811831000000000000000000000000000000000000000000000000000000000000000000000000000000000, 12807521753600000000000000000000000000000000000000000000000000000000000000000000000000000000, 12805162501200000000000000000000000000000000000000000000000000000000000000000000000000000000, 12802774423400000000000000000000000000000000000000000000000000000000000000000000000000000000, 12800384199600000000000000000000000000000000000000000000000000000000000000000000000000000000, 12798008134300000000000000000000000000000000000000000000000000000000000000000000000000000000, 12795655592600000000000000000000000000000000000000000000000000000000000000000000000000000000, 12793331532600000000000000000000000000000000000000000000000000000000000000000000000000000000, 12791038190500000000000000000000000000000000000000000000000000000000000000000000000000000000, 12788776157200000000000000000000000000000000000000000000000000000000000000000000000000000000, 12786545052800000000000000000000000000000000000000000000000000000000000000000000000000000000, 12784343943800000000000000000000000000000000000000000000000000000000000000000000000000000000, 12782171601300000000000000000000000000000000000000000000000000000000000000000000000000000000, 12780026657800000000000000000000000000000000000000000000000000000000000000000000000000000000, 12777907702900000000000000000000000000000000000000000000000000000000000000000000000000000000, 12775813339900000000000000000000000000000000000000000000000000000000000000000000000000000000, 12773742218500000000000000000000000000000000000000000000000000000000000000000000000000000000, 12771693052500000000000000000000000000000000000000000000000000000000000000000000000000000000, 12769664628400000000000000000000000000000000000000000000000000000000000000000000000000000000, 12767655808100000000000000000000000000000000000000000000000000000000000000000000000000000000, 12765665528100000000000000000000000000000000000000000000000000000000000000000000000000000000, 12763692797200000000000000000000000000000000000000000000000000000000000000000000000000000000, 12761736692100000000000000000000000000000000000000000000000000000000000000000000000000000000, 12759796353800000000000000000000000000000000000000000000000000000000000000000000000000000000, 12757870982400000000000000000000000000000000000000000000000000000000000000000000000000000000, 12755959833000000000000000000000000000000000000000000000000000000000000000000000000000000000, 12754062211300000000000000000000000000000000000000000000000000000000000000000000000000000000, 12752177469700000000000000000000000000000000000000000000000000000000000000000000000000000000, 12750305003200000000000000000000000000000000000000000000000000000000000000000000000000000000, 12748444246000000000000000000000000000000000000000000000000000000000000000000000000000000000, 12746594668600000000000000000000000000000000000000000000000000000000000000000000000000000000, 12744755774500000000000000000000000000000000000000000000000000000000000000000000000000000000, 12742927097600000000000000000000000000000000000000000000000000000000000000000000000000000000, 12741108200100000000000000000000000000000000000000000000000000000000000000000000000000000000, 12739298669700000000000000000000000000000000000000000000000000000000000000000000000000000000, 12737498118200000000000000000000000000000000000000000000000000000000000000000000000000000000]),
  (328325250501000, [12840816723200000000000000000000000000000000000000000000000000000000000000000000000000000000, 12836820772000000000000000000000000000000000000000000000000000000000000000000000000000000000, 12834667492600000000000000000000000000000000000000000000000000000000000000000000000000000000, 12832616460900000000000000000000000000000000000000000000000000000000000000000000000000000000, 12830423176700000000000000000000000000000000000000000000000000000000000000000000000000000000, 12828108998500000000000000000000000000000000000000000000000000000000000000000000000000000000, 12825725022300000000000000000000000000000000000000000000000000000000000000000000000000000000, 12823311750200000000000000000000000000000000000000000000000000000000000000000000000000000000, 12820896005400000000000000000000000000000000000000000000000000000000000000000000000000000000, 12818494212800000000000000000000000000000000000000000000000000000000000000000000000000000000, 12816115831800000000000000000000000000000000000000000000000000000000000000000000000000000000, 12813765889100000000000000000000000000000000000000000000000000000000000000000000000000000000, 12811446669000000000000000000000000000000000000000000000000000000000000000000000000000000000, 12809158795000000000000000000000000000000000000000000000000000000000000000000000000000000000, 12806901907500000000000000000000000000000000000000000000000000000000000000000000000000000000, 12804675085800000000000000000000000000000000000000000000000000000000000000000000000000000000, 12802477107900000000000000000000000000000000000000000000000000000000000000000000000000000000, 12800306609300000000000000000000000000000000000000000000000000000000000000000000000000000000, 12798162180100000000000000000000000000000000000000000000000000000000000000000000000000000000, 12796042422600000000000000000000000000000000000000000000000000000000000000000000000000000000, 12793945984200000000000000000000000000000000000000000000000000000000000000000000000000000000, 12791871576100000000000000000000000000000000000000000000000000000000000000000000000000000000, 12789817981700000000000000000000000000000000000000000000000000000000000000000000000000000000, 12787784059700000000000000000000000000000000000000000000000000000000000000000000000000000000, 12785768743600000000000000000000000000000000000000000000000000000000000000000000000000000000, 12783771039100000000000000000000000000000000000000000000000000000000000000000000000000000000, 12781790020000000000000000000000000000000000000000000000000000000000000000000000000000000000, 12779824824600000000000000000000000000000000000000000000000000000000000000000000000000000000, 12777874650500000000000000000000000000000000000000000000000000000000000000000000000000000000, 12775938750300000000000000000000000000000000000000000000000000000000000000000000000000000000, 12774016427700000000000000000000000000000000000000000000000000000000000000000000000000000000, 12772107032900000000000000000000000000000000000000000000000000000000000000000000000000000000, 12770209959000000000000000000000000000000000000000000000000000000000000000000000000000000000, 12768324638500000000000000000000000000000000000000000000000000000000000000000000000000000000, 12766450540200000000000000000000000000000000000000000000000000000000000000000000000000000000, 12764587166100000000000000000000000000000000000000000000000000000000000000000000000000000000, 12762734048600000000000000000000000000000000000000000000000000000000000000000000000000000000, 12760890748600000000000000000000000000000000000000000000000000000000000000000000000000000000, 12759056852500000000000000000000000000000000000000000000000000000000000000000000000000000000, 12757231970900000000000000000000000000000000000000000000000000000000000000000000000000000000]),
  (330429258517000, [12861339160700000000000000000000000000000000000000000000000000000000000000000000000000000000, 12857317766000000000000000000000000000000000000000000000000000000000000000000000000000000000, 12855141084700000000000000000000000000000000000000000000000000000000000000000000000000000000, 12853066841600000000000000000000000000000000000000000000000000000000000000000000000000000000, 12850849940100000000000000000000000000000000000000000000000000000000000000000000000000000000, 12848511627000000000000000000000000000000000000000000000000000000000000000000000000000000000, 12846103060600000000000000000000000000000000000000000000000000000000000000000000000000000000, 12843664860200000000000000000000000000000000000000000000000000000000000000000000000000000000, 12841223966900000000000000000000000000000000000000000000000000000000000000000000000000000000, 12838796904000000000000000000000000000000000000000000000000000000000000000000000000000000000, 12836393204100000000000000000000000000000000000000000000000000000000000000000000000000000000, 12834017945300000000000000000000000000000000000000000000000000000000000000000000000000000000, 12831673445600000000000000000000000000000000000000000000000000000000000000000000000000000000, 12829360349700000000000000000000000000000000000000000000000000000000000000000000000000000000, 12827078310700000000000000000000000000000000000000000000000000000000000000000000000000000000, 12824826414800000000000000000000000000000000000000000000000000000000000000000000000000000000, 12822603442700000000000000000000000000000000000000000000000000000000000000000000000000000000, 12820408030700000000000000000000000000000000000000000000000000000000000000000000000000000000, 12818238767900000000000000000000000000000000000000000000000000000000000000000000000000000000, 12816094254200000000000000000000000000000000000000000000000000000000000000000000000000000000, 12813973134800000000000000000000000000000000000000000000000000000000000000000000000000000000, 12811874117900000000000000000000000000000000000000000000000000000000000000000000000000000000, 12809795984000000000000000000000000000000000000000000000000000000000000000000000000000000000, 12807737588800000000000000000000000000000000000000000000000000000000000000000000000000000000, 12805697863100000000000000000000000000000000000000000000000000000000000000000000000000000000, 12803675809500000000000000000000000000000000000000000000000000000000000000000000000000000000, 12801670499600000000000000000000000000000000000000000000000000000000000000000000000000000000, 12799681069000000000000000000000000000000000000000000000000000000000000000000000000000000000, 12797706712900000000000000000000000000000000000000000000000000000000000000000000000000000000, 12795746681900000000000000000000000000000000000000000000000000000000000000000000000000000000, 12793800277400000000000000000000000000000000000000000000000000000000000000000000000000000000, 12791866847900000000000000000000000000000000000000000000000000000000000000000000000000000000, 12789945784500000000000000000000000000000000000000000000000000000000000000000000000000000000, 12788036518200000000000000000000000000000000000000000000000000000000000000000000000000000000, 12786138516000000000000000000000000000000000000000000000000000000000000000000000000000000000, 12784251278500000000000000000000000000000000000000000000000000000000000000000000000000000000, 12782374336800000000000000000000000000000000000000000000000000000000000000000000000000000000, 12780507250100000000000000000000000000000000000000000000000000000000000000000000000000000000, 12778649603900000000000000000000000000000000000000000000000000000000000000000000000000000000, 12776801007500000000000000000000000000000000000000000000000000000000000000000000000000000000]),
  (332533266533000, [12881639524600000000000000000000000000000000000000000000000000000000000000000000000000000000, 12877591682400000000000000000000000000000000000000000000000000000000000000000000000000000000, 12875391092700000000000000000000000000000000000000000000000000000000000000000000000000000000, 12873293442400000000000000000000000000000000000000000000000000000000000000000000000000000000, 12871052981600000000000000000000000000000000000000000000000000000000000000000000000000000000, 12868690786900000000000000000000000000000000000000000000000000000000000000000000000000000000, 12866258038600000000000000000000000000000000000000000000000000000000000000000000000000000000, 12863795438300000000000000000000000000000000000000000000000000000000000000000000000000000000, 12861330014000000000000000000000000000000000000000000000000000000000000000000000000000000000, 12858878359400000000000000000000000000000000000000000000000000000000000000000000000000000000, 12856450058300000000000000000000000000000000000000000000000000000000000000000000000000000000, 12854050223100000000000000000000000000000000000000000000000000000000000000000000000000000000, 12851681194200000000000000000000000000000000000000000000000000000000000000000000000000000000, 12849343629800000000000000000000000000000000000000000000000000000000000000000000000000000000, 12847037190900000000000000000000000000000000000000000000000000000000000000000000000000000000, 12844760967800000000000000000000000000000000000000000000000000000000000000000000000000000000, 12842513742600000000000000000000000000000000000000000000000000000000000000000000000000000000, 12840294151700000000000000000000000000000000000000000000000000000000000000000000000000000000, 12838100782900000000000000000000000000000000000000000000000000000000000000000000000000000000, 12835932234700000000000000000000000000000000000000000000000000000000000000000000000000000000, 12833787150000000000000000000000000000000000000000000000000000000000000000000000000000000000, 12831664234800000000000000000000000000000000000000000000000000000000000000000000000000000000, 12829562267200000000000000000000000000000000000000000000000000000000000000000000000000000000, 12827480100500000000000000000000000000000000000000000000000000000000000000000000000000000000, 12825416663000000000000000000000000000000000000000000000000000000000000000000000000000000000, 12823370955200000000000000000000000000000000000000000000000000000000000000000000000000000000, 12821342046300000000000000000000000000000000000000000000000000000000000000000000000000000000, 12819329069600000000000000000000000000000000000000000000000000000000000000000000000000000000, 12817331218400000000000000000000000000000000000000000000000000000000000000000000000000000000, 12815347741200000000000000000000000000000000000000000000000000000000000000000000000000000000, 12813377937600000000000000000000000000000000000000000000000000000000000000000000000000000000, 12811421154100000000000000000000000000000000000000000000000000000000000000000000000000000000, 12809476780300000000000000000000000000000000000000000000000000000000000000000000000000000000, 12807544245400000000000000000000000000000000000000000000000000000000000000000000000000000000, 12805623014900000000000000000000000000000000000000000000000000000000000000000000000000000000, 12803712588000000000000000000000000000000000000000000000000000000000000000000000000000000000, 12801812494200000000000000000000000000000000000000000000000000000000000000000000000000000000, 12799922291800000000000000000000000000000000000000000000000000000000000000000000000000000000, 12798041564900000000000000000000000000000000000000000000000000000000000000000000000000000000, 12796169921600000000000000000000000000000000000000000000000000000000000000000000000000000000]),
  (334637274549000, [12901671174800000000000000000000000000000000000000000000000000000000000000000000000000000000, 12897598372700000000000000000000000000000000000000000000000000000000000000000000000000000000, 12895375692800000000000000000000000000000000000000000000000000000000000000000000000000000000, 12893255878900000000000000000000000000000000000000000000000000000000000000000000000000000000, 12890992782300000000000000000000000000000000000000000000000000000000000000000000000000000000, 12888607548100000000000000000000000000000000000000000000000000000000000000000000000000000000, 12886151478100000000000000000000000000000000000000000000000000000000000000000000000000000000, 12883665377000000000000000000000000000000000000000000000000000000000000000000000000000000000, 12881176349300000000000000000000000000000000000000000000000000000000000000000000000000000000, 12878701042500000000000000000000000000000000000000000000000000000000000000000000000000000000, 12876249078000000000000000000000000000000000000000000000000000000000000000000000000000000000, 12873825593600000000000000000000000000000000000000000000000000000000000000000000000000000000, 12871432947300000000000000000000000000000000000000000000000000000000000000000000000000000000, 12869071809100000000000000000000000000000000000000000000000000000000000000000000000000000000, 12866741847900000000000000000000000000000000000000000000000000000000000000000000000000000000, 12864442158900000000000000000000000000000000000000000000000000000000000000000000000000000000, 12862171527500000000000000000000000000000000000000000000000000000000000000000000000000000000, 12859928591500000000000000000000000000000000000000000000000000000000000000000000000000000000, 12857711939200000000000000000000000000000000000000000000000000000000000000000000000000000000, 12855520168900000000000000000000000000000000000000000000000000000000000000000000000000000000, 12853351922700000000000000000000000000000000000000000000000000000000000000000000000000000000, 12851205905300000000000000000000000000000000000000000000000000000000000000000000000000000000, 12849080893500000000000000000000000000000000000000000000000000000000000000000000000000000000, 12846975738800000000000000000000000000000000000000000000000000000000000000000000000000000000, 12844889367800000000000000000000000000000000000000000000000000000000000000000000000000000000, 12842820779100000000000000000000000000000000000000000000000000000000000000000000000000000000, 12840769040000000000000000000000000000000000000000000000000000000000000000000000000000000000, 12838733281900000000000000000000000000000000000000000000000000000000000000000000000000000000, 12836712696300000000000000000000000000000000000000000000000000000000000000000000000000000000, 12834706529800000000000000000000000000000000000000000000000000000000000000000000000000000000, 12832714080300000000000000000000000000000000000000000000000000000000000000000000000000000000, 12830734692500000000000000000000000000000000000000000000000000000000000000000000000000000000, 12828767754400000000000000000000000000000000000000000000000000000000000000000000000000000000, 12826812693700000000000000000000000000000000000000000000000000000000000000000000000000000000, 12824868974500000000000000000000000000000000000000000000000000000000000000000000000000000000, 12822936094500000000000000000000000000000000000000000000000000000000000000000000000000000000, 12821013582000000000000000000000000000000000000000000000000000000000000000000000000000000000, 12819100994100000000000000000000000000000000000000000000000000000000000000000000000000000000, 12817197913700000000000000000000000000000000000000000000000000000000000000000000000000000000, 12815303948000000000000000000000000000000000000000000000000000000000000000000000000000000000]),
  (336741282565000, [12921386536000000000000000000000000000000000000000000000000000000000000000000000000000000000, 12917295026600000000000000000000000000000000000000000000000000000000000000000000000000000000, 12915054346400000000000000000000000000000000000000000000000000000000000000000000000000000000, 12912914821200000000000000000000000000000000000000000000000000000000000000000000000000000000, 12910630742100000000000000000000000000000000000000000000000000000000000000000000000000000000, 12908223818400000000000000000000000000000000000000000000000000000000000000000000000000000000, 12905745676500000000000000000000000000000000000000000000000000000000000000000000000000000000, 12903237286600000000000000000000000000000000000000000000000000000000000000000000000000000000, 12900725839700000000000000000000000000000000000000000000000000000000000000000000000000000000, 12898228034500000000000000000000000000000000000000000000000000000000000000000000000000000000, 12895753525900000000000000000000000000000000000000000000000000000000000000000000000000000000, 12893307476700000000000000000000000000000000000000000000000000000000000000000000000000000000, 12890892264000000000000000000000000000000000000000000000000000000000000000000000000000000000, 12888508572700000000000000000000000000000000000000000000000000000000000000000000000000000000, 12886156083400000000000000000000000000000000000000000000000000000000000000000000000000000000, 12883833900100000000000000000000000000000000000000000000000000000000000000000000000000000000, 12881540814400000000000000000000000000000000000000000000000000000000000000000000000000000000, 12879275468600000000000000000000000000000000000000000000000000000000000000000000000000000000, 12877036454200000000000000000000000000000000000000000000000000000000000000000000000000000000, 12874822371000000000000000000000000000000000000000000000000000000000000000000000000000000000, 12872631861800000000000000000000000000000000000000000000000000000000000000000000000000000000, 12870463631600000000000000000000000000000000000000000000000000000000000000000000000000000000, 12868316456300000000000000000000000000000000000000000000000000000000000000000000000000000000, 12866189186700000000000000000000000000000000000000000000000000000000000000000000000000000000, 12864080748100000000000000000000000000000000000000000000000000000000000000000000000000000000, 12861990137600000000000000000000000000000000000000000000000000000000000000000000000000000000, 12859916420800000000000000000000000000000000000000000000000000000000000000000000000000000000, 12857858727700000000000000000000000000000000000000000000000000000000000000000000000000000000, 12855816247800000000000000000000000000000000000000000000000000000000000000000000000000000000, 12853788226400000000000000000000000000000000000000000000000000000000000000000000000000000000, 12851773959500000000000000000000000000000000000000000000000000000000000000000000000000000000, 12849772790400000000000000000000000000000000000000000000000000000000000000000000000000000000, 12847784105500000000000000000000000000000000000000000000000000000000000000000000000000000000, 12845807331100000000000000000000000000000000000000000000000000000000000000000000000000000000, 12843841930000000000000000000000000000000000000000000000000000000000000000000000000000000000, 12841887398600000000000000000000000000000000000000000000000000000000000000000000000000000000, 12839943264400000000000000000000000000000000000000000000000000000000000000000000000000000000, 12838009083100000000000000000000000000000000000000000000000000000000000000000000000000000000, 12836084436900000000000000000000000000000000000000000000000000000000000000000000000000000000, 12834168932000000000000000000000000000000000000000000000000000000000000000000000000000000000]),
  (338845290581000, [12940752143200000000000000000000000000000000000000000000000000000000000000000000000000000000, 12936646541500000000000000000000000000000000000000000000000000000000000000000000000000000000, 12934390970200000000000000000000000000000000000000000000000000000000000000000000000000000000, 12932233760700000000000000000000000000000000000000000000000000000000000000000000000000000000, 12929930274700000000000000000000000000000000000000000000000000000000000000000000000000000000, 12927503078600000000000000000000000000000000000000000000000000000000000000000000000000000000, 12925004225900000000000000000000000000000000000000000000000000000000000000000000000000000000, 12922474876200000000000000000000000000000000000000000000000000000000000000000000000000000000, 12919942306700000000000000000000000000000000000000000000000000000000000000000000000000000000, 12917423262800000000000000000000000000000000000000000000000000000000000000000000000000000000, 12914927431400000000000000000000000000000000000000000000000000000000000000000000000000000000, 12912460001800000000000000000000000000000000000000000000000000000000000000000000000000000000, 12910023373300000000000000000000000000000000000000000000000000000000000000000000000000000000, 12907618249900000000000000000000000000000000000000000000000000000000000000000000000000000000, 12905244327900000000000000000000000000000000000000000000000000000000000000000000000000000000, 12902900723600000000000000000000000000000000000000000000000000000000000000000000000000000000, 12900586238200000000000000000000000000000000000000000000000000000000000000000000000000000000, 12898299521200000000000000000000000000000000000000000000000000000000000000000000000000000000, 12896039168600000000000000000000000000000000000000000000000000000000000000000000000000000000, 12893803783700000000000000000000000000000000000000000000000000000000000000000000000000000000, 12891592011200000000000000000000000000000000000000000000000000000000000000000000000000000000, 12889402556800000000000000000000000000000000000000000000000000000000000000000000000000000000, 12887234196500000000000000000000000000000000000000000000000000000000000000000000000000000000, 12885085780600000000000000000000000000000000000000000000000000000000000000000000000000000000, 12882956233200000000000000000000000000000000000000000000000000000000000000000000000000000000, 12880844550500000000000000000000000000000000000000000000000000000000000000000000000000000000, 12878749796700000000000000000000000000000000000000000000000000000000000000000000000000000000, 12876671100100000000000000000000000000000000000000000000000000000000000000000000000000000000, 12874607648900000000000000000000000000000000000000000000000000000000000000000000000000000000, 12872558686800000000000000000000000000000000000000000000000000000000000000000000000000000000, 12870523508300000000000000000000000000000000000000000000000000000000000000000000000000000000, 12868501455500000000000000000000000000000000000000000000000000000000000000000000000000000000, 12866491913400000000000000000000000000000000000000000000000000000000000000000000000000000000, 12864494307300000000000000000000000000000000000000000000000000000000000000000000000000000000, 12862508098900000000000000000000000000000000000000000000000000000000000000000000000000000000, 12860532783700000000000000000000000000000000000000000000000000000000000000000000000000000000, 12858567888300000000000000000000000000000000000000000000000000000000000000000000000000000000, 12856612967700000000000000000000000000000000000000000000000000000000000000000000000000000000, 12854667603500000000000000000000000000000000000000000000000000000000000000000000000000000000, 12852731401400000000000000000000000000000000000000000000000000000000000000000000000000000000]),
  (340949298597000, [12959745879400000000000000000000000000000000000000000000000000000000000000000000000000000000, 12955624913000000000000000000000000000000000000000000000000000000000000000000000000000000000, 12953353787000000000000000000000000000000000000000000000000000000000000000000000000000000000, 12951179083300000000000000000000000000000000000000000000000000000000000000000000000000000000, 12948856941800000000000000000000000000000000000000000000000000000000000000000000000000000000, 12946410513000000000000000000000000000000000000000000000000000000000000000000000000000000000, 12943892126600000000000000000000000000000000000000000000000000000000000000000000000000000000, 12941343054100000000000000000000000000000000000000000000000000000000000000000000000000000000, 12938790619100000000000000000000000000000000000000000000000000000000000000000000000000000000, 12936251593500000000000000000000000000000000000000000000000000000000000000000000000000000000, 12933735686500000000000000000000000000000000000000000000000000000000000000000000000000000000, 12931248109400000000000000000000000000000000000000000000000000000000000000000000000000000000, 12928791282600000000000000000000000000000000000000000000000000000000000000000000000000000000, 12926365929200000000000000000000000000000000000000000000000000000000000000000000000000000000, 12923971761400000000000000000000000000000000000000000000000000000000000000000000000000000000, 12921607908600000000000000000000000000000000000000000000000000000000000000000000000000000000, 12919273182400000000000000000000000000000000000000000000000000000000000000000000000000000000, 12916966239200000000000000000000000000000000000000000000000000000000000000000000000000000000, 12914685680600000000000000000000000000000000000000000000000000000000000000000000000000000000, 12912430113000000000000000000000000000000000000000000000000000000000000000000000000000000000, 12910198183100000000000000000000000000000000000000000000000000000000000000000000000000000000, 12907988597400000000000000000000000000000000000000000000000000000000000000000000000000000000, 12905800132100000000000000000000000000000000000000000000000000000000000000000000000000000000, 12903631636900000000000000000000000000000000000000000000000000000000000000000000000000000000, 12901482035100000000000000000000000000000000000000000000000000000000000000000000000000000000, 12899350321600000000000000000000000000000000000000000000000000000000000000000000000000000000, 12897235559500000000000000000000000000000000000000000000000000000000000000000000000000000000, 12895136875900000000000000000000000000000000000000000000000000000000000000000000000000000000, 12893053457700000000000000000000000000000000000000000000000000000000000000000000000000000000, 12890984547200000000000000000000000000000000000000000000000000000000000000000000000000000000, 12888929438300000000000000000000000000000000000000000000000000000000000000000000000000000000, 12886887471700000000000000000000000000000000000000000000000000000000000000000000000000000000, 12884858031900000000000000000000000000000000000000000000000000000000000000000000000000000000, 12882840543300000000000000000000000000000000000000000000000000000000000000000000000000000000, 12880834467100000000000000000000000000000000000000000000000000000000000000000000000000000000, 12878839298400000000000000000000000000000000000000000000000000000000000000000000000000000000, 12876854563300000000000000000000000000000000000000000000000000000000000000000000000000000000, 12874879816800000000000000000000000000000000000000000000000000000000000000000000000000000000, 12872914640200000000000000000000000000000000000000000000000000000000000000000000000000000000, 12870958639300000000000000000000000000000000000000000000000000000000000000000000000000000000]),
  (343053306613000, [12978341604800000000000000000000000000000000000000000000000000000000000000000000000000000000, 12974201717900000000000000000000000000000000000000000000000000000000000000000000000000000000, 12971911812000000000000000000000000000000000000000000000000000000000000000000000000000000000, 12969718380400000000000000000000000000000000000000000000000000000000000000000000000000000000, 12967377566300000000000000000000000000000000000000000000000000000000000000000000000000000000, 12964912499400000000000000000000000000000000000000000000000000000000000000000000000000000000, 12962375478600000000000000000000000000000000000000000000000000000000000000000000000000000000, 12959807744000000000000000000000000000000000000000000000000000000000000000000000000000000000, 12957236597400000000000000000000000000000000000000000000000000000000000000000000000000000000, 12954678800900000000000000000000000000000000000000000000000000000000000000000000000000000000, 12952144065400000000000000000000000000000000000000000000000000000000000000000000000000000000, 12949637610200000000000000000000000000000000000000000000000000000000000000000000000000000000, 12947161866700000000000000000000000000000000000000000000000000000000000000000000000000000000, 12944717569700000000000000000000000000000000000000000000000000000000000000000000000000000000, 12942304441700000000000000000000000000000000000000000000000000000000000000000000000000000000, 12939921620900000000000000000000000000000000000000000000000000000000000000000000000000000000, 12937567925100000000000000000000000000000000000000000000000000000000000000000000000000000000, 12935242015700000000000000000000000000000000000000000000000000000000000000000000000000000000, 12932942497300000000000000000000000000000000000000000000000000000000000000000000000000000000, 12930667978300000000000000000000000000000000000000000000000000000000000000000000000000000000, 12928417106100000000000000000000000000000000000000000000000000000000000000000000000000000000, 12926188587400000000000000000000000000000000000000000000000000000000000000000000000000000000, 12923981198000000000000000000000000000000000000000000000000000000000000000000000000000000000, 12921793786900000000000000000000000000000000000000000000000000000000000000000000000000000000, 12919625276700000000000000000000000000000000000000000000000000000000000000000000000000000000, 12917474661200000000000000000000000000000000000000000000000000000000000000000000000000000000, 12915341002700000000000000000000000000000000000000000000000000000000000000000000000000000000, 12913223427400000000000000000000000000000000000000000000000000000000000000000000000000000000, 12911121121600000000000000000000000000000000000000000000000000000000000000000000000000000000, 12909033327200000000000000000000000000000000000000000000000000000000000000000000000000000000, 12906959337300000000000000000000000000000000000000000000000000000000000000000000000000000000, 12904898492700000000000000000000000000000000000000000000000000000000000000000000000000000000, 12902850177700000000000000000000000000000000000000000000000000000000000000000000000000000000, 12900813816700000000000000000000000000000000000000000000000000000000000000000000000000000000, 12898788871100000000000000000000000000000000000000000000000000000000000000000000000000000000, 12896774836300000000000000000000000000000000000000000000000000000000000000000000000000000000, 12894771238800000000000000000000000000000000000000000000000000000000000000000000000000000000, 12892777634000000000000000000000000000000000000000000000000000000000000000000000000000000000, 12890793603800000000000000000000000000000000000000000000000000000000000000000000000000000000, 12888818754600000000000000000000000000000000000000000000000000000000000000000000000000000000]),
  (345157314629000, [12996502755700000000000000000000000000000000000000000000000000000000000000000000000000000000, 12992341995900000000000000000000000000000000000000000000000000000000000000000000000000000000, 12990031409600000000000000000000000000000000000000000000000000000000000000000000000000000000, 12987818481900000000000000000000000000000000000000000000000000000000000000000000000000000000, 12985459034500000000000000000000000000000000000000000000000000000000000000000000000000000000, 12982975844100000000000000000000000000000000000000000000000000000000000000000000000000000000, 12980420989100000000000000000000000000000000000000000000000000000000000000000000000000000000, 12977835581200000000000000000000000000000000000000000000000000000000000000000000000000000000, 12975246846700000000000000000000000000000000000000000000000000000000000000000000000000000000, 12972671503700000000000000000000000000000000000000000000000000000000000000000000000000000000, 12970119237800000000000000000000000000000000000000000000000000000000000000000000000000000000, 12967595254500000000000000000000000000000000000000000000000000000000000000000000000000000000, 12965101978200000000000000000000000000000000000000000000000000000000000000000000000000000000, 12962640140000000000000000000000000000000000000000000000000000000000000000000000000000000000, 12960209461100000000000000000000000000000000000000000000000000000000000000000000000000000000, 12957809078700000000000000000000000000000000000000000000000000000000000000000000000000000000, 12955437810400000000000000000000000000000000000000000000000000000000000000000000000000000000, 12953094317100000000000000000000000000000000000000000000000000000000000000000000000000000000, 12950777202800000000000000000000000000000000000000000000000000000000000000000000000000000000, 12948485075300000000000000000000000000000000000000000000000000000000000000000000000000000000, 12946216581200000000000000000000000000000000000000000000000000000000000000000000000000000000, 12943970426500000000000000000000000000000000000000000000000000000000000000000000000000000000, 12941745386400000000000000000000000000000000000000000000000000000000000000000000000000000000, 12939540309400000000000000000000000000000000000000000000000000000000000000000000000000000000, 12937354117400000000000000000000000000000000000000000000000000000000000000000000000000000000, 12935185804200000000000000000000000000000000000000000000000000000000000000000000000000000000, 12933034432000000000000000000000000000000000000000000000000000000000000000000000000000000000, 12930899127200000000000000000000000000000000000000000000000000000000000000000000000000000000, 12928779076300000000000000000000000000000000000000000000000000000000000000000000000000000000, 12926673521900000000000000000000000000000000000000000000000000000000000000000000000000000000, 12924581757800000000000000000000000000000000000000000000000000000000000000000000000000000000, 12922503125700000000000000000000000000000000000000000000000000000000000000000000000000000000, 12920437010800000000000000000000000000000000000000000000000000000000000000000000000000000000, 12918382838700000000000000000000000000000000000000000000000000000000000000000000000000000000, 12916340072000000000000000000000000000000000000000000000000000000000000000000000000000000000, 12914308207300000000000000000000000000000000000000000000000000000000000000000000000000000000, 12912286772600000000000000000000000000000000000000000000000000000000000000000000000000000000, 12910275324600000000000000000000000000000000000000000000000000000000000000000000000000000000, 12908273446500000000000000000000000000000000000000000000000000000000000000000000000000000000, 12906280746100000000000000000000000000000000000000000000000000000000000000000000000000000000]),
  (347261322645000, [13014185012600000000000000000000000000000000000000000000000000000000000000000000000000000000, 13010005283000000000000000000000000000000000000000000000000000000000000000000000000000000000, 13007675968700000000000000000000000000000000000000000000000000000000000000000000000000000000, 13005444775700000000000000000000000000000000000000000000000000000000000000000000000000000000, 13003067657300000000000000000000000000000000000000000000000000000000000000000000000000000000, 13000567294500000000000000000000000000000000000000000000000000000000000000000000000000000000, 12997995648100000000000000000000000000000000000000000000000000000000000000000000000000000000, 12995393732700000000000000000000000000000000000000000000000000000000000000000000000000000000, 12992788697200000000000000000000000000000000000000000000000000000000000000000000000000000000, 12990197197800000000000000000000000000000000000000000000000000000000000000000000000000000000, 12987628870400000000000000000000000000000000000000000000000000000000000000000000000000000000, 12985088881900000000000000000000000000000000000000000000000000000000000000000000000000000000, 12982579626800000000000000000000000000000000000000000000000000000000000000000000000000000000, 12980101814200000000000000000000000000000000000000000000000000000000000000000000000000000000, 12977655148700000000000000000000000000000000000000000000000000000000000000000000000000000000, 12975238755900000000000000000000000000000000000000000000000000000000000000000000000000000000, 12972851445000000000000000000000000000000000000000000000000000000000000000000000000000000000, 12970491871100000000000000000000000000000000000000000000000000000000000000000000000000000000, 12968158634500000000000000000000000000000000000000000000000000000000000000000000000000000000, 12965850340300000000000000000000000000000000000000000000000000000000000000000000000000000000, 12963565634000000000000000000000000000000000000000000000000000000000000000000000000000000000, 12961303220900000000000000000000000000000000000000000000000000000000000000000000000000000000, 12959061876100000000000000000000000000000000000000000000000000000000000000000000000000000000, 12956840448800000000000000000000000000000000000000000000000000000000000000000000000000000000, 12954637861900000000000000000000000000000000000000000000000000000000000000000000000000000000, 12952453110500000000000000000000000000000000000000000000000000000000000000000000000000000000, 12950285258400000000000000000000000000000000000000000000000000000000000000000000000000000000, 12948133433900000000000000000000000000000000000000000000000000000000000000000000000000000000, 12945996825700000000000000000000000000000000000000000000000000000000000000000000000000000000, 12943874678400000000000000000000000000000000000000000000000000000000000000000000000000000000, 12941766288300000000000000000000000000000000000000000000000000000000000000000000000000000000, 12939670999500000000000000000000000000000000000000000000000000000000000000000000000000000000, 12937588199700000000000000000000000000000000000000000000000000000000000000000000000000000000, 12935517317000000000000000000000000000000000000000000000000000000000000000000000000000000000, 12933457816600000000000000000000000000000000000000000000000000000000000000000000000000000000, 12931409197500000000000000000000000000000000000000000000000000000000000000000000000000000000, 12929370990200000000000000000000000000000000000000000000000000000000000000000000000000000000, 12927342753700000000000000000000000000000000000000000000000000000000000000000000000000000000, 12925324073800000000000000000000000000000000000000000000000000000000000000000000000000000000, 12923314560400000000000000000000000000000000000000000000000000000000000000000000000000000000]),
  (349365330661000, [13031344449700000000000000000000000000000000000000000000000000000000000000000000000000000000, 13027151524100000000000000000000000000000000000000000000000000000000000000000000000000000000, 13024808367600000000000000000000000000000000000000000000000000000000000000000000000000000000, 13022562082500000000000000000000000000000000000000000000000000000000000000000000000000000000, 13020169456100000000000000000000000000000000000000000000000000000000000000000000000000000000, 13017653657700000000000000000000000000000000000000000000000000000000000000000000000000000000, 13015066840900000000000000000000000000000000000000000000000000000000000000000000000000000000, 13012450055700000000000000000000000000000000000000000000000000000000000000000000000000000000, 13009830413800000000000000000000000000000000000000000000000000000000000000000000000000000000, 13007224506500000000000000000000000000000000000000000000000000000000000000000000000000000000, 13004641901500000000000000000000000000000000000000000000000000000000000000000000000000000000, 13002087704500000000000000000000000000000000000000000000000000000000000000000000000000000000, 12999564260500000000000000000000000000000000000000000000000000000000000000000000000000000000, 12997072240500000000000000000000000000000000000000000000000000000000000000000000000000000000, 12994611322000000000000000000000000000000000000000000000000000000000000000000000000000000000, 12992180611400000000000000000000000000000000000000000000000000000000000000000000000000000000, 12989778905600000000000000000000000000000000000000000000000000000000000000000000000000000000, 12987404852300000000000000000000000000000000000000000000000000000000000000000000000000000000, 12985057047800000000000000000000000000000000000000000000000000000000000000000000000000000000, 12982734096000000000000000000000000000000000000000000000000000000000000000000000000000000000, 12980434642800000000000000000000000000000000000000000000000000000000000000000000000000000000, 12978157395400000000000000000000000000000000000000000000000000000000000000000000000000000000, 12975901131500000000000000000000000000000000000000000000000000000000000000000000000000000000, 12973664703500000000000000000000000000000000000000000000000000000000000000000000000000000000, 12971447038300000000000000000000000000000000000000000000000000000000000000000000000000000000, 12969247135100000000000000000000000000000000000000000000000000000000000000000000000000000000, 12967064061800000000000000000000000000000000000000000000000000000000000000000000000000000000, 12964896951200000000000000000000000000000000000000000000000000000000000000000000000000000000, 12962744996500000000000000000000000000000000000000000000000000000000000000000000000000000000, 12960607446600000000000000000000000000000000000000000000000000000000000000000000000000000000, 12958483602500000000000000000000000000000000000000000000000000000000000000000000000000000000, 12956372812300000000000000000000000000000000000000000000000000000000000000000000000000000000, 12954274468200000000000000000000000000000000000000000000000000000000000000000000000000000000, 12952188002400000000000000000000000000000000000000000000000000000000000000000000000000000000, 12950112883900000000000000000000000000000000000000000000000000000000000000000000000000000000, 12948048615600000000000000000000000000000000000000000000000000000000000000000000000000000000, 12945994731700000000000000000000000000000000000000000000000000000000000000000000000000000000, 12943950794600000000000000000000000000000000000000000000000000000000000000000000000000000000, 12941916393400000000000000000000000000000000000000000000000000000000000000000000000000000000, 12939891141200000000000000000000000000000000000000000000000000000000000000000000000000000000]),
  (351469338677000, [13047945948900000000000000000000000000000000000000000000000000000000000000000000000000000000, 13043745539600000000000000000000000000000000000000000000000000000000000000000000000000000000, 13041393589200000000000000000000000000000000000000000000000000000000000000000000000000000000, 13039136177900000000000000000000000000000000000000000000000000000000000000000000000000000000, 13036731136000000000000000000000000000000000000000000000000000000000000000000000000000000000, 13034202535500000000000000000000000000000000000000000000000000000000000000000000000000000000, 13031602988200000000000000000000000000000000000000000000000000000000000000000000000000000000, 13028973694000000000000000000000000000000000000000000000000000000000000000000000000000000000, 13026341757900000000000000000000000000000000000000000000000000000000000000000000000000000000, 13023723702700000000000000000000000000000000000000000000000000000000000000000000000000000000, 13021129015400000000000000000000000000000000000000000000000000000000000000000000000000000000, 13018562729000000000000000000000000000000000000000000000000000000000000000000000000000000000, 13016027132500000000000000000000000000000000000000000000000000000000000000000000000000000000, 13013522856500000000000000000000000000000000000000000000000000000000000000000000000000000000, 13011049552200000000000000000000000000000000000000000000000000000000000000000000000000000000, 13008606310800000000000000000000000000000000000000000000000000000000000000000000000000000000, 13006191921800000000000000000000000000000000000000000000000000000000000000000000000000000000, 13003805031000000000000000000000000000000000000000000000000000000000000000000000000000000000, 13001444237000000000000000000000000000000000000000000000000000000000000000000000000000000000, 12999108148000000000000000000000000000000000000000000000000000000000000000000000000000000000, 12996795416300000000000000000000000000000000000000000000000000000000000000000000000000000000, 12994504756000000000000000000000000000000000000000000000000000000000000000000000000000000000, 12992234952600000000000000000000000000000000000000000000000000000000000000000000000000000000, 12989984866400000000000000000000000000000000000000000000000000000000000000000000000000000000, 12987753432200000000000000000000000000000000000000000000000000000000000000000000000000000000, 12985539657100000000000000000000000000000000000000000000000000000000000000000000000000000000, 12983342616700000000000000000000000000000000000000000000000000000000000000000000000000000000, 12981161451400000000000000000000000000000000000000000000000000000000000000000000000000000000, 12978995361500000000000000000000000000000000000000000000000000000000000000000000000000000000, 12976843603100000000000000000000000000000000000000000000000000000000000000000000000000000000, 12974705483500000000000000000000000000000000000000000000000000000000000000000000000000000000, 12972580357500000000000000000000000000000000000000000000000000000000000000000000000000000000, 12970467623100000000000000000000000000000000000000000000000000000000000000000000000000000000, 12968366718100000000000000000000000000000000000000000000000000000000000000000000000000000000, 12966277116900000000000000000000000000000000000000000000000000000000000000000000000000000000, 12964198327700000000000000000000000000000000000000000000000000000000000000000000000000000000, 12962129889000000000000000000000000000000000000000000000000000000000000000000000000000000000, 12960071367900000000000000000000000000000000000000000000000000000000000000000000000000000000, 12958022357500000000000000000000000000000000000000000000000000000000000000000000000000000000, 12955982474600000000000000000000000000000000000000000000000000000000000000000000000000000000]),
  (353573346693000, [13063961962400000000000000000000000000000000000000000000000000000000000000000000000000000000, 13059756769500000000000000000000000000000000000000000000000000000000000000000000000000000000, 13057399698400000000000000000000000000000000000000000000000000000000000000000000000000000000, 13055135058000000000000000000000000000000000000000000000000000000000000000000000000000000000, 13052721352300000000000000000000000000000000000000000000000000000000000000000000000000000000, 13050183532800000000000000000000000000000000000000000000000000000000000000000000000000000000, 13047574668400000000000000000000000000000000000000000000000000000000000000000000000000000000, 13044936087100000000000000000000000000000000000000000000000000000000000000000000000000000000, 13042294865000000000000000000000000000000000000000000000000000000000000000000000000000000000, 13039667448000000000000000000000000000000000000000000000000000000000000000000000000000000000, 13037063247300000000000000000000000000000000000000000000000000000000000000000000000000000000, 13034487239100000000000000000000000000000000000000000000000000000000000000000000000000000000, 13031941676600000000000000000000000000000000000000000000000000000000000000000000000000000000, 13029427172400000000000000000000000000000000000000000000000000000000000000000000000000000000, 13026943373200000000000000000000000000000000000000000000000000000000000000000000000000000000, 13024489374400000000000000000000000000000000000000000000000000000000000000000000000000000000, 13022063975700000000000000000000000000000000000000000000000000000000000000000000000000000000, 13019665836200000000000000000000000000000000000000000000000000000000000000000000000000000000, 13017293569300000000000000000000000000000000000000000000000000000000000000000000000000000000, 13014945798900000000000000000000000000000000000000000000000000000000000000000000000000000000, 13012621192400000000000000000000000000000000000000000000000000000000000000000000000000000000, 13010318479200000000000000000000000000000000000000000000000000000000000000000000000000000000, 13008036458900000000000000000000000000000000000000000000000000000000000000000000000000000000, 13005774005500000000000000000000000000000000000000000000000000000000000000000000000000000000, 13003530066500000000000000000000000000000000000000000000000000000000000000000000000000000000, 13001303661100000000000000000000000000000000000000000000000000000000000000000000000000000000, 12999093876300000000000000000000000000000000000000000000000000000000000000000000000000000000, 12996899863000000000000000000000000000000000000000000000000000000000000000000000000000000000, 12994720831400000000000000000000000000000000000000000000000000000000000000000000000000000000, 12992556046900000000000000000000000000000000000000000000000000000000000000000000000000000000, 12990404825400000000000000000000000000000000000000000000000000000000000000000000000000000000, 12988266529700000000000000000000000000000000000000000000000000000000000000000000000000000000, 12986140565100000000000000000000000000000000000000000000000000000000000000000000000000000000, 12984026376400000000000000000000000000000000000000000000000000000000000000000000000000000000, 12981923444500000000000000000000000000000000000000000000000000000000000000000000000000000000, 12979831283200000000000000000000000000000000000000000000000000000000000000000000000000000000, 12977749436600000000000000000000000000000000000000000000000000000000000000000000000000000000, 12975677476800000000000000000000000000000000000000000000000000000000000000000000000000000000, 12973615001400000000000000000000000000000000000000000000000000000000000000000000000000000000, 12971561631700000000000000000000000000000000000000000000000000000000000000000000000000000000]),
  (355677354709000, [13079365619400000000000000000000000000000000000000000000000000000000000000000000000000000000, 13075156910100000000000000000000000000000000000000000000000000000000000000000000000000000000, 13072797748300000000000000000000000000000000000000000000000000000000000000000000000000000000, 13070529938800000000000000000000000000000000000000000000000000000000000000000000000000000000, 13068112187400000000000000000000000000000000000000000000000000000000000000000000000000000000, 13065569844400000000000000000000000000000000000000000000000000000000000000000000000000000000, 13062956097500000000000000000000000000000000000000000000000000000000000000000000000000000000, 13060312234000000000000000000000000000000000000000000000000000000000000000000000000000000000, 13057665257000000000000000000000000000000000000000000000000000000000000000000000000000000000, 13055031560700000000000000000000000000000000000000000000000000000000000000000000000000000000, 13052420537500000000000000000000000000000000000000000000000000000000000000000000000000000000, 13049837171800000000000000000000000000000000000000000000000000000000000000000000000000000000, 13047283743000000000000000000000000000000000000000000000000000000000000000000000000000000000, 13044760900100000000000000000000000000000000000000000000000000000000000000000000000000000000, 13042268329900000000000000000000000000000000000000000000000000000000000000000000000000000000, 13039805168500000000000000000000000000000000000000000000000000000000000000000000000000000000, 13037370254200000000000000000000000000000000000000000000000000000000000000000000000000000000, 13034962281700000000000000000000000000000000000000000000000000000000000000000000000000000000, 13032579896800000000000000000000000000000000000000000000000000000000000000000000000000000000, 13030221752400000000000000000000000000000000000000000000000000000000000000000000000000000000, 13027886541800000000000000000000000000000000000000000000000000000000000000000000000000000000, 13025573017600000000000000000000000000000000000000000000000000000000000000000000000000000000, 13023280000300000000000000000000000000000000000000000000000000000000000000000000000000000000, 13021006382700000000000000000000000000000000000000000000000000000000000000000000000000000000, 13018751129400000000000000000000000000000000000000000000000000000000000000000000000000000000, 13016513274700000000000000000000000000000000000000000000000000000000000000000000000000000000, 13014291919900000000000000000000000000000000000000000000000000000000000000000000000000000000, 13012086228500000000000000000000000000000000000000000000000000000000000000000000000000000000, 13009895422400000000000000000000000000000000000000000000000000000000000000000000000000000000, 13007718777600000000000000000000000000000000000000000000000000000000000000000000000000000000, 13005555619800000000000000000000000000000000000000000000000000000000000000000000000000000000, 13003405320600000000000000000000000000000000000000000000000000000000000000000000000000000000, 13001267293500000000000000000000000000000000000000000000000000000000000000000000000000000000, 12999140990700000000000000000000000000000000000000000000000000000000000000000000000000000000, 12997025899800000000000000000000000000000000000000000000000000000000000000000000000000000000, 12994921540800000000000000000000000000000000000000000000000000000000000000000000000000000000, 12992827463400000000000000000000000000000000000000000000000000000000000000000000000000000000, 12990743244900000000000000000000000000000000000000000000000000000000000000000000000000000000, 12988668487400000000000000000000000000000000000000000000000000000000000000000000000000000000, 12986602816400000000000000000000000000000000000000000000000000000000000000000000000000000000]),
  (357781362725000, [13094128487200000000000000000000000000000000000000000000000000000000000000000000000000000000, 13089919590000000000000000000000000000000000000000000000000000000000000000000000000000000000, 13087562338400000000000000000000000000000000000000000000000000000000000000000000000000000000, 13085296782200000000000000000000000000000000000000000000000000000000000000000000000000000000, 13082881124000000000000000000000000000000000000000000000000000000000000000000000000000000000, 13080340172500000000000000000000000000000000000000000000000000000000000000000000000000000000, 13077726717100000000000000000000000000000000000000000000000000000000000000000000000000000000, 13075081870200000000000000000000000000000000000000000000000000000000000000000000000000000000, 13072432630100000000000000000000000000000000000000000000000000000000000000000000000000000000, 13069795481800000000000000000000000000000000000000000000000000000000000000000000000000000000, 13067179948600000000000000000000000000000000000000000000000000000000000000000000000000000000, 13064591155000000000000000000000000000000000000000000000000000000000000000000000000000000000, 13062031512100000000000000000000000000000000000000000000000000000000000000000000000000000000, 13059501786300000000000000000000000000000000000000000000000000000000000000000000000000000000, 13057001764800000000000000000000000000000000000000000000000000000000000000000000000000000000, 13054530668100000000000000000000000000000000000000000000000000000000000000000000000000000000, 13052087404500000000000000000000000000000000000000000000000000000000000000000000000000000000, 13049670726600000000000000000000000000000000000000000000000000000000000000000000000000000000, 13047279328100000000000000000000000000000000000000000000000000000000000000000000000000000000, 13044911901900000000000000000000000000000000000000000000000000000000000000000000000000000000, 13042567175000000000000000000000000000000000000000000000000000000000000000000000000000000000, 13040243928200000000000000000000000000000000000000000000000000000000000000000000000000000000, 13037941006800000000000000000000000000000000000000000000000000000000000000000000000000000000, 13035657324500000000000000000000000000000000000000000000000000000000000000000000000000000000, 13033391864600000000000000000000000000000000000000000000000000000000000000000000000000000000, 13031143677900000000000000000000000000000000000000000000000000000000000000000000000000000000, 13028911880200000000000000000000000000000000000000000000000000000000000000000000000000000000, 13026695648200000000000000000000000000000000000000000000000000000000000000000000000000000000, 13024494215400000000000000000000000000000000000000000000000000000000000000000000000000000000, 13022306868300000000000000000000000000000000000000000000000000000000000000000000000000000000, 13020132942300000000000000000000000000000000000000000000000000000000000000000000000000000000, 13017971817300000000000000000000000000000000000000000000000000000000000000000000000000000000, 13015822914800000000000000000000000000000000000000000000000000000000000000000000000000000000, 13013685693800000000000000000000000000000000000000000000000000000000000000000000000000000000, 13011559648300000000000000000000000000000000000000000000000000000000000000000000000000000000, 13009444303800000000000000000000000000000000000000000000000000000000000000000000000000000000, 13007339215400000000000000000000000000000000000000000000000000000000000000000000000000000000, 13005243964700000000000000000000000000000000000000000000000000000000000000000000000000000000, 13003158158100000000000000000000000000000000000000000000000000000000000000000000000000000000, 13001081425000000000000000000000000000000000000000000000000000000000000000000000000000000000]),
  (359885370741000, [13108226578600000000000000000000000000000000000000000000000000000000000000000000000000000000, 13104022687900000000000000000000000000000000000000000000000000000000000000000000000000000000, 13101674153900000000000000000000000000000000000000000000000000000000000000000000000000000000, 13099419219200000000000000000000000000000000000000000000000000000000000000000000000000000000, 13097013644200000000000000000000000000000000000000000000000000000000000000000000000000000000, 13094480606300000000000000000000000000000000000000000000000000000000000000000000000000000000, 13091872315800000000000000000000000000000000000000000000000000000000000000000000000000000000, 13089229961800000000000000000000000000000000000000000000000000000000000000000000000000000000, 13086580895700000000000000000000000000000000000000000000000000000000000000000000000000000000, 13083942016600000000000000000000000000000000000000000000000000000000000000000000000000000000, 13081323229900000000000000000000000000000000000000000000000000000000000000000000000000000000, 13078729979700000000000000000000000000000000000000000000000000000000000000000000000000000000, 13076164933100000000000000000000000000000000000000000000000000000000000000000000000000000000, 13073629055600000000000000000000000000000000000000000000000000000000000000000000000000000000, 13071122287600000000000000000000000000000000000000000000000000000000000000000000000000000000, 13068643966700000000000000000000000000000000000000000000000000000000000000000000000000000000, 13066193090300000000000000000000000000000000000000000000000000000000000000000000000000000000, 13063768479800000000000000000000000000000000000000000000000000000000000000000000000000000000, 13061368881700000000000000000000000000000000000000000000000000000000000000000000000000000000, 13058993030400000000000000000000000000000000000000000000000000000000000000000000000000000000, 13056639686000000000000000000000000000000000000000000000000000000000000000000000000000000000, 13054307656200000000000000000000000000000000000000000000000000000000000000000000000000000000, 13051995808300000000000000000000000000000000000000000000000000000000000000000000000000000000, 13049703074700000000000000000000000000000000000000000000000000000000000000000000000000000000, 13047428454700000000000000000000000000000000000000000000000000000000000000000000000000000000, 13045171013100000000000000000000000000000000000000000000000000000000000000000000000000000000, 13042929877500000000000000000000000000000000000000000000000000000000000000000000000000000000, 13040704235600000000000000000000000000000000000000000000000000000000000000000000000000000000, 13038493330300000000000000000000000000000000000000000000000000000000000000000000000000000000, 13036296456900000000000000000000000000000000000000000000000000000000000000000000000000000000, 13034112958000000000000000000000000000000000000000000000000000000000000000000000000000000000, 13031942220800000000000000000000000000000000000000000000000000000000000000000000000000000000, 13029783672500000000000000000000000000000000000000000000000000000000000000000000000000000000, 13027636777900000000000000000000000000000000000000000000000000000000000000000000000000000000, 13025501035800000000000000000000000000000000000000000000000000000000000000000000000000000000, 13023375976100000000000000000000000000000000000000000000000000000000000000000000000000000000, 13021261157900000000000000000000000000000000000000000000000000000000000000000000000000000000, 13019156166300000000000000000000000000000000000000000000000000000000000000000000000000000000, 13017060610800000000000000000000000000000000000000000000000000000000000000000000000000000000, 13014974123500000000000000000000000000000000000000000000000000000000000000000000000000000000]),
  (361989378758000, [13121643748000000000000000000000000000000000000000000000000000000000000000000000000000000000, 13117452423700000000000000000000000000000000000000000000000000000000000000000000000000000000, 13115125319900000000000000000000000000000000000000000000000000000000000000000000000000000000, 13112892752600000000000000000000000000000000000000000000000000000000000000000000000000000000, 13110505537600000000000000000000000000000000000000000000000000000000000000000000000000000000, 13107985314800000000000000000000000000000000000000000000000000000000000000000000000000000000, 13105384644900000000000000000000000000000000000000000000000000000000000000000000000000000000, 13102745715100000000000000000000000000000000000000000000000000000000000000000000000000000000, 13100096911600000000000000000000000000000000000000000000000000000000000000000000000000000000, 13097455993200000000000000000000000000000000000000000000000000000000000000000000000000000000, 13094833517800000000000000000000000000000000000000000000000000000000000000000000000000000000, 13092235404200000000000000000000000000000000000000000000000000000000000000000000000000000000, 13089664656600000000000000000000000000000000000000000000000000000000000000000000000000000000, 13087122477600000000000000000000000000000000000000000000000000000000000000000000000000000000, 13084608972700000000000000000000000000000000000000000000000000000000000000000000000000000000, 13082123594000000000000000000000000000000000000000000000000000000000000000000000000000000000, 13079665418400000000000000000000000000000000000000000000000000000000000000000000000000000000, 13077233322800000000000000000000000000000000000000000000000000000000000000000000000000000000, 13074826092500000000000000000000000000000000000000000000000000000000000000000000000000000000, 13072442489900000000000000000000000000000000000000000000000000000000000000000000000000000000, 13070081295400000000000000000000000000000000000000000000000000000000000000000000000000000000, 13067741332200000000000000000000000000000000000000000000000000000000000000000000000000000000, 13065421479600000000000000000000000000000000000000000000000000000000000000000000000000000000, 13063120680200000000000000000000000000000000000000000000000000000000000000000000000000000000, 13060837941200000000000000000000000000000000000000000000000000000000000000000000000000000000, 13058572334600000000000000000000000000000000000000000000000000000000000000000000000000000000, 13056322994600000000000000000000000000000000000000000000000000000000000000000000000000000000, 13054089114300000000000000000000000000000000000000000000000000000000000000000000000000000000, 13051869942000000000000000000000000000000000000000000000000000000000000000000000000000000000, 13049664777200000000000000000000000000000000000000000000000000000000000000000000000000000000, 13047472967200000000000000000000000000000000000000000000000000000000000000000000000000000000, 13045293902500000000000000000000000000000000000000000000000000000000000000000000000000000000, 13043127014200000000000000000000000000000000000000000000000000000000000000000000000000000000, 13040971769900000000000000000000000000000000000000000000000000000000000000000000000000000000, 13038827671200000000000000000000000000000000000000000000000000000000000000000000000000000000, 13036694250700000000000000000000000000000000000000000000000000000000000000000000000000000000, 13034571069400000000000000000000000000000000000000000000000000000000000000000000000000000000, 13032457714600000000000000000000000000000000000000000000000000000000000000000000000000000000, 13030353797600000000000000000000000000000000000000000000000000000000000000000000000000000000, 13028258951800000000000000000000000000000000000000000000000000000000000000000000000000000000]),
  (364093386774000, [13134369496100000000000000000000000000000000000000000000000000000000000000000000000000000000, 13130212693900000000000000000000000000000000000000000000000000000000000000000000000000000000, 13127926858200000000000000000000000000000000000000000000000000000000000000000000000000000000, 13125727547500000000000000000000000000000000000000000000000000000000000000000000000000000000, 13123362239200000000000000000000000000000000000000000000000000000000000000000000000000000000, 13120854085900000000000000000000000000000000000000000000000000000000000000000000000000000000, 13118258302800000000000000000000000000000000000000000000000000000000000000000000000000000000, 13115619438200000000000000000000000000000000000000000000000000000000000000000000000000000000, 13112967617600000000000000000000000000000000000000000000000000000000000000000000000000000000, 13110321779900000000000000000000000000000000000000000000000000000000000000000000000000000000, 13107693250400000000000000000000000000000000000000000000000000000000000000000000000000000000, 13105088433900000000000000000000000000000000000000000000000000000000000000000000000000000000, 13102510636000000000000000000000000000000000000000000000000000000000000000000000000000000000, 13099961241000000000000000000000000000000000000000000000000000000000000000000000000000000000, 13097440460600000000000000000000000000000000000000000000000000000000000000000000000000000000, 13094947805600000000000000000000000000000000000000000000000000000000000000000000000000000000, 13092482382600000000000000000000000000000000000000000000000000000000000000000000000000000000, 13090043080300000000000000000000000000000000000000000000000000000000000000000000000000000000, 13087628686700000000000000000000000000000000000000000000000000000000000000000000000000000000, 13085237961400000000000000000000000000000000000000000000000000000000000000000000000000000000, 13082869679900000000000000000000000000000000000000000000000000000000000000000000000000000000, 13080522659700000000000000000000000000000000000000000000000000000000000000000000000000000000, 13078195775000000000000000000000000000000000000000000000000000000000000000000000000000000000, 13075887963400000000000000000000000000000000000000000000000000000000000000000000000000000000, 13073598228800000000000000000000000000000000000000000000000000000000000000000000000000000000, 13071325640100000000000000000000000000000000000000000000000000000000000000000000000000000000, 13069069329300000000000000000000000000000000000000000000000000000000000000000000000000000000, 13066828488000000000000000000000000000000000000000000000000000000000000000000000000000000000, 13064602363600000000000000000000000000000000000000000000000000000000000000000000000000000000, 13062390255200000000000000000000000000000000000000000000000000000000000000000000000000000000, 13060191509400000000000000000000000000000000000000000000000000000000000000000000000000000000, 13058005517100000000000000000000000000000000000000000000000000000000000000000000000000000000, 13055831709100000000000000000000000000000000000000000000000000000000000000000000000000000000, 13053669553500000000000000000000000000000000000000000000000000000000000000000000000000000000, 13051518552000000000000000000000000000000000000000000000000000000000000000000000000000000000, 13049378237400000000000000000000000000000000000000000000000000000000000000000000000000000000, 13047248170900000000000000000000000000000000000000000000000000000000000000000000000000000000, 13045127940200000000000000000000000000000000000000000000000000000000000000000000000000000000, 13043017156500000000000000000000000000000000000000000000000000000000000000000000000000000000, 13040915453800000000000000000000000000000000000000000000000000000000000000000000000000000000]),
  (366197394790000, [13146421330600000000000000000000000000000000000000000000000000000000000000000000000000000000, 13142341010200000000000000000000000000000000000000000000000000000000000000000000000000000000, 13140111407200000000000000000000000000000000000000000000000000000000000000000000000000000000, 13137943685700000000000000000000000000000000000000000000000000000000000000000000000000000000, 13135591545100000000000000000000000000000000000000000000000000000000000000000000000000000000, 13133085025300000000000000000000000000000000000000000000000000000000000000000000000000000000, 13130484392700000000000000000000000000000000000000000000000000000000000000000000000000000000, 13127837383200000000000000000000000000000000000000000000000000000000000000000000000000000000, 13125175984400000000000000000000000000000000000000000000000000000000000000000000000000000000, 13122520167700000000000000000000000000000000000000000000000000000000000000000000000000000000, 13119881799200000000000000000000000000000000000000000000000000000000000000000000000000000000, 13117267542500000000000000000000000000000000000000000000000000000000000000000000000000000000, 13114680803500000000000000000000000000000000000000000000000000000000000000000000000000000000, 13112122980600000000000000000000000000000000000000000000000000000000000000000000000000000000, 13109594255200000000000000000000000000000000000000000000000000000000000000000000000000000000, 13107094087700000000000000000000000000000000000000000000000000000000000000000000000000000000, 13104621527600000000000000000000000000000000000000000000000000000000000000000000000000000000, 13102175407400000000000000000000000000000000000000000000000000000000000000000000000000000000, 13099754463500000000000000000000000000000000000000000000000000000000000000000000000000000000, 13097357410200000000000000000000000000000000000000000000000000000000000000000000000000000000, 13094982984000000000000000000000000000000000000000000000000000000000000000000000000000000000, 13092629970100000000000000000000000000000000000000000000000000000000000000000000000000000000, 13090297215800000000000000000000000000000000000000000000000000000000000000000000000000000000, 13087983636900000000000000000000000000000000000000000000000000000000000000000000000000000000, 13085688219300000000000000000000000000000000000000000000000000000000000000000000000000000000, 13083410017600000000000000000000000000000000000000000000000000000000000000000000000000000000, 13081148152500000000000000000000000000000000000000000000000000000000000000000000000000000000, 13078901806100000000000000000000000000000000000000000000000000000000000000000000000000000000, 13076670218400000000000000000000000000000000000000000000000000000000000000000000000000000000, 13074452682400000000000000000000000000000000000000000000000000000000000000000000000000000000, 13072248540100000000000000000000000000000000000000000000000000000000000000000000000000000000, 13070057178300000000000000000000000000000000000000000000000000000000000000000000000000000000, 13067878024600000000000000000000000000000000000000000000000000000000000000000000000000000000, 13065710544400000000000000000000000000000000000000000000000000000000000000000000000000000000, 13063554237200000000000000000000000000000000000000000000000000000000000000000000000000000000, 13061408634000000000000000000000000000000000000000000000000000000000000000000000000000000000, 13059273294400000000000000000000000000000000000000000000000000000000000000000000000000000000, 13057147804600000000000000000000000000000000000000000000000000000000000000000000000000000000, 13055031775000000000000000000000000000000000000000000000000000000000000000000000000000000000, 13052924838000000000000000000000000000000000000000000000000000000000000000000000000000000000])]
noncomputable def ttSpec7 : List (Nat × List Nat) := [
  (368301402806000, [13157894978800000000000000000000000000000000000000000000000000000000000000000000000000000000, 13153909569700000000000000000000000000000000000000000000000000000000000000000000000000000000, 13151716673900000000000000000000000000000000000000000000000000000000000000000000000000000000, 13149552763200000000000000000000000000000000000000000000000000000000000000000000000000000000, 13147188364300000000000000000000000000000000000000000000000000000000000000000000000000000000, 13144663167200000000000000000000000000000000000000000000000000000000000000000000000000000000, 13142042395900000000000000000000000000000000000000000000000000000000000000000000000000000000, 13139376080500000000000000000000000000000000000000000000000000000000000000000000000000000000, 13136697122500000000000000000000000000000000000000000000000000000000000000000000000000000000, 13134025735000000000000000000000000000000000000000000000000000000000000000000000000000000000, 13131373717800000000000000000000000000000000000000000000000000000000000000000000000000000000, 13128747540700000000000000000000000000000000000000000000000000000000000000000000000000000000, 13126150376000000000000000000000000000000000000000000000000000000000000000000000000000000000, 13123583390200000000000000000000000000000000000000000000000000000000000000000000000000000000, 13121046552400000000000000000000000000000000000000000000000000000000000000000000000000000000, 13118539137100000000000000000000000000000000000000000000000000000000000000000000000000000000, 13116060036100000000000000000000000000000000000000000000000000000000000000000000000000000000, 13113607949800000000000000000000000000000000000000000000000000000000000000000000000000000000, 13111181506000000000000000000000000000000000000000000000000000000000000000000000000000000000, 13108779329800000000000000000000000000000000000000000000000000000000000000000000000000000000, 13106400086000000000000000000000000000000000000000000000000000000000000000000000000000000000, 13104042501500000000000000000000000000000000000000000000000000000000000000000000000000000000, 13101705376800000000000000000000000000000000000000000000000000000000000000000000000000000000, 13099387590200000000000000000000000000000000000000000000000000000000000000000000000000000000, 13097088097400000000000000000000000000000000000000000000000000000000000000000000000000000000, 13094805929000000000000000000000000000000000000000000000000000000000000000000000000000000000, 13092540185900000000000000000000000000000000000000000000000000000000000000000000000000000000, 13090290034900000000000000000000000000000000000000000000000000000000000000000000000000000000, 13088054703100000000000000000000000000000000000000000000000000000000000000000000000000000000, 13085833473200000000000000000000000000000000000000000000000000000000000000000000000000000000, 13083625678900000000000000000000000000000000000000000000000000000000000000000000000000000000, 13081430700000000000000000000000000000000000000000000000000000000000000000000000000000000000, 13079247958600000000000000000000000000000000000000000000000000000000000000000000000000000000, 13077076915100000000000000000000000000000000000000000000000000000000000000000000000000000000, 13074917065200000000000000000000000000000000000000000000000000000000000000000000000000000000, 13072767936500000000000000000000000000000000000000000000000000000000000000000000000000000000, 13070629085900000000000000000000000000000000000000000000000000000000000000000000000000000000, 13068500097000000000000000000000000000000000000000000000000000000000000000000000000000000000, 13066380578200000000000000000000000000000000000000000000000000000000000000000000000000000000, 13064270160200000000000000000000000000000000000000000000000000000000000000000000000000000000]),
  (370405410822000, [13168948659300000000000000000000000000000000000000000000000000000000000000000000000000000000, 13164971781600000000000000000000000000000000000000000000000000000000000000000000000000000000, 13162741493300000000000000000000000000000000000000000000000000000000000000000000000000000000, 13160528727800000000000000000000000000000000000000000000000000000000000000000000000000000000, 13158116786300000000000000000000000000000000000000000000000000000000000000000000000000000000, 13155549847500000000000000000000000000000000000000000000000000000000000000000000000000000000, 13152894056700000000000000000000000000000000000000000000000000000000000000000000000000000000, 13150198964300000000000000000000000000000000000000000000000000000000000000000000000000000000, 13147496565000000000000000000000000000000000000000000000000000000000000000000000000000000000, 13144806131700000000000000000000000000000000000000000000000000000000000000000000000000000000, 13142138627500000000000000000000000000000000000000000000000000000000000000000000000000000000, 13139499819500000000000000000000000000000000000000000000000000000000000000000000000000000000, 13136892305000000000000000000000000000000000000000000000000000000000000000000000000000000000, 13134316786000000000000000000000000000000000000000000000000000000000000000000000000000000000, 13131772858900000000000000000000000000000000000000000000000000000000000000000000000000000000, 13129259500800000000000000000000000000000000000000000000000000000000000000000000000000000000, 13126775365900000000000000000000000000000000000000000000000000000000000000000000000000000000, 13124318966700000000000000000000000000000000000000000000000000000000000000000000000000000000, 13121888781200000000000000000000000000000000000000000000000000000000000000000000000000000000, 13119483316500000000000000000000000000000000000000000000000000000000000000000000000000000000, 13117101143800000000000000000000000000000000000000000000000000000000000000000000000000000000, 13114740915900000000000000000000000000000000000000000000000000000000000000000000000000000000, 13112401374600000000000000000000000000000000000000000000000000000000000000000000000000000000, 13110081351900000000000000000000000000000000000000000000000000000000000000000000000000000000, 13107779766700000000000000000000000000000000000000000000000000000000000000000000000000000000, 13105495620200000000000000000000000000000000000000000000000000000000000000000000000000000000, 13103227989900000000000000000000000000000000000000000000000000000000000000000000000000000000, 13100976023800000000000000000000000000000000000000000000000000000000000000000000000000000000, 13098738934100000000000000000000000000000000000000000000000000000000000000000000000000000000, 13096515991300000000000000000000000000000000000000000000000000000000000000000000000000000000, 13094306519200000000000000000000000000000000000000000000000000000000000000000000000000000000, 13092109889500000000000000000000000000000000000000000000000000000000000000000000000000000000, 13089925517600000000000000000000000000000000000000000000000000000000000000000000000000000000, 13087752858800000000000000000000000000000000000000000000000000000000000000000000000000000000, 13085591404100000000000000000000000000000000000000000000000000000000000000000000000000000000, 13083440677300000000000000000000000000000000000000000000000000000000000000000000000000000000, 13081300232200000000000000000000000000000000000000000000000000000000000000000000000000000000, 13079169649800000000000000000000000000000000000000000000000000000000000000000000000000000000, 13077048536200000000000000000000000000000000000000000000000000000000000000000000000000000000, 13074936520200000000000000000000000000000000000000000000000000000000000000000000000000000000]),
  (372509418838000, [13179613283900000000000000000000000000000000000000000000000000000000000000000000000000000000, 13175459053600000000000000000000000000000000000000000000000000000000000000000000000000000000, 13173096856000000000000000000000000000000000000000000000000000000000000000000000000000000000, 13170786385100000000000000000000000000000000000000000000000000000000000000000000000000000000, 13168301766500000000000000000000000000000000000000000000000000000000000000000000000000000000, 13165680547600000000000000000000000000000000000000000000000000000000000000000000000000000000, 13162984017900000000000000000000000000000000000000000000000000000000000000000000000000000000, 13160258190700000000000000000000000000000000000000000000000000000000000000000000000000000000, 13157532501600000000000000000000000000000000000000000000000000000000000000000000000000000000, 13154824369200000000000000000000000000000000000000000000000000000000000000000000000000000000, 13152143401500000000000000000000000000000000000000000000000000000000000000000000000000000000, 13149494363200000000000000000000000000000000000000000000000000000000000000000000000000000000, 13146879100500000000000000000000000000000000000000000000000000000000000000000000000000000000, 13144297746400000000000000000000000000000000000000000000000000000000000000000000000000000000, 13141749462900000000000000000000000000000000000000000000000000000000000000000000000000000000, 13139232892500000000000000000000000000000000000000000000000000000000000000000000000000000000, 13136746431400000000000000000000000000000000000000000000000000000000000000000000000000000000, 13134288392100000000000000000000000000000000000000000000000000000000000000000000000000000000, 13131857097500000000000000000000000000000000000000000000000000000000000000000000000000000000, 13129450934100000000000000000000000000000000000000000000000000000000000000000000000000000000, 13127068379200000000000000000000000000000000000000000000000000000000000000000000000000000000, 13124708012500000000000000000000000000000000000000000000000000000000000000000000000000000000, 13122368518800000000000000000000000000000000000000000000000000000000000000000000000000000000, 13120048685400000000000000000000000000000000000000000000000000000000000000000000000000000000, 13117747396200000000000000000000000000000000000000000000000000000000000000000000000000000000, 13115463624900000000000000000000000000000000000000000000000000000000000000000000000000000000, 13113196427600000000000000000000000000000000000000000000000000000000000000000000000000000000, 13110944935000000000000000000000000000000000000000000000000000000000000000000000000000000000, 13108708345900000000000000000000000000000000000000000000000000000000000000000000000000000000, 13106485920100000000000000000000000000000000000000000000000000000000000000000000000000000000, 13104276972800000000000000000000000000000000000000000000000000000000000000000000000000000000, 13102080868800000000000000000000000000000000000000000000000000000000000000000000000000000000, 13099897018100000000000000000000000000000000000000000000000000000000000000000000000000000000, 13097724871500000000000000000000000000000000000000000000000000000000000000000000000000000000, 13095563916400000000000000000000000000000000000000000000000000000000000000000000000000000000, 13093413673900000000000000000000000000000000000000000000000000000000000000000000000000000000, 13091273695400000000000000000000000000000000000000000000000000000000000000000000000000000000, 13089143560000000000000000000000000000000000000000000000000000000000000000000000000000000000, 13087022872300000000000000000000000000000000000000000000000000000000000000000000000000000000, 13084911259900000000000000000000000000000000000000000000000000000000000000000000000000000000]),
  (374613426854000, [13189568609700000000000000000000000000000000000000000000000000000000000000000000000000000000, 13185127604300000000000000000000000000000000000000000000000000000000000000000000000000000000, 13182603249500000000000000000000000000000000000000000000000000000000000000000000000000000000, 13180192466000000000000000000000000000000000000000000000000000000000000000000000000000000000, 13177642320900000000000000000000000000000000000000000000000000000000000000000000000000000000, 13174976832000000000000000000000000000000000000000000000000000000000000000000000000000000000, 13172249790700000000000000000000000000000000000000000000000000000000000000000000000000000000, 13169502747700000000000000000000000000000000000000000000000000000000000000000000000000000000, 13166762336300000000000000000000000000000000000000000000000000000000000000000000000000000000, 13164044136700000000000000000000000000000000000000000000000000000000000000000000000000000000, 13161356504100000000000000000000000000000000000000000000000000000000000000000000000000000000, 13158703321900000000000000000000000000000000000000000000000000000000000000000000000000000000, 13156085800000000000000000000000000000000000000000000000000000000000000000000000000000000000, 13153503602700000000000000000000000000000000000000000000000000000000000000000000000000000000, 13150955541100000000000000000000000000000000000000000000000000000000000000000000000000000000, 13148439992900000000000000000000000000000000000000000000000000000000000000000000000000000000, 13145955153100000000000000000000000000000000000000000000000000000000000000000000000000000000, 13143499180100000000000000000000000000000000000000000000000000000000000000000000000000000000, 13141070279600000000000000000000000000000000000000000000000000000000000000000000000000000000, 13138666748000000000000000000000000000000000000000000000000000000000000000000000000000000000, 13136286993400000000000000000000000000000000000000000000000000000000000000000000000000000000, 13133929542900000000000000000000000000000000000000000000000000000000000000000000000000000000, 13131593040900000000000000000000000000000000000000000000000000000000000000000000000000000000, 13129276243600000000000000000000000000000000000000000000000000000000000000000000000000000000, 13126978011500000000000000000000000000000000000000000000000000000000000000000000000000000000, 13124697300400000000000000000000000000000000000000000000000000000000000000000000000000000000, 13122433152400000000000000000000000000000000000000000000000000000000000000000000000000000000, 13120184688100000000000000000000000000000000000000000000000000000000000000000000000000000000, 13117951098300000000000000000000000000000000000000000000000000000000000000000000000000000000, 13115731636900000000000000000000000000000000000000000000000000000000000000000000000000000000, 13113525614700000000000000000000000000000000000000000000000000000000000000000000000000000000, 13111332393300000000000000000000000000000000000000000000000000000000000000000000000000000000, 13109151380400000000000000000000000000000000000000000000000000000000000000000000000000000000, 13106982025100000000000000000000000000000000000000000000000000000000000000000000000000000000, 13104823813600000000000000000000000000000000000000000000000000000000000000000000000000000000, 13102676266400000000000000000000000000000000000000000000000000000000000000000000000000000000, 13100538934400000000000000000000000000000000000000000000000000000000000000000000000000000000, 13098411396600000000000000000000000000000000000000000000000000000000000000000000000000000000, 13096293257600000000000000000000000000000000000000000000000000000000000000000000000000000000, 13094184145400000000000000000000000000000000000000000000000000000000000000000000000000000000]),
  (376717434870000, [13198257469800000000000000000000000000000000000000000000000000000000000000000000000000000000, 13193664134900000000000000000000000000000000000000000000000000000000000000000000000000000000, 13191065621400000000000000000000000000000000000000000000000000000000000000000000000000000000, 13188616437700000000000000000000000000000000000000000000000000000000000000000000000000000000, 13186046059700000000000000000000000000000000000000000000000000000000000000000000000000000000, 13183370261500000000000000000000000000000000000000000000000000000000000000000000000000000000, 13180638712900000000000000000000000000000000000000000000000000000000000000000000000000000000, 13177890778100000000000000000000000000000000000000000000000000000000000000000000000000000000, 13175151852300000000000000000000000000000000000000000000000000000000000000000000000000000000, 13172436765000000000000000000000000000000000000000000000000000000000000000000000000000000000, 13169753385900000000000000000000000000000000000000000000000000000000000000000000000000000000, 13167105266200000000000000000000000000000000000000000000000000000000000000000000000000000000, 13164493378300000000000000000000000000000000000000000000000000000000000000000000000000000000, 13161917211000000000000000000000000000000000000000000000000000000000000000000000000000000000, 13159375444100000000000000000000000000000000000000000000000000000000000000000000000000000000, 13156866355600000000000000000000000000000000000000000000000000000000000000000000000000000000, 13154388064900000000000000000000000000000000000000000000000000000000000000000000000000000000, 13151938673900000000000000000000000000000000000000000000000000000000000000000000000000000000, 13149516345300000000000000000000000000000000000000000000000000000000000000000000000000000000, 13147119344300000000000000000000000000000000000000000000000000000000000000000000000000000000, 13144746056200000000000000000000000000000000000000000000000000000000000000000000000000000000, 13142394991900000000000000000000000000000000000000000000000000000000000000000000000000000000, 13140064784500000000000000000000000000000000000000000000000000000000000000000000000000000000, 13137754183100000000000000000000000000000000000000000000000000000000000000000000000000000000, 13135462043500000000000000000000000000000000000000000000000000000000000000000000000000000000, 13133187319100000000000000000000000000000000000000000000000000000000000000000000000000000000, 13130929051400000000000000000000000000000000000000000000000000000000000000000000000000000000, 13128686361200000000000000000000000000000000000000000000000000000000000000000000000000000000, 13126458440300000000000000000000000000000000000000000000000000000000000000000000000000000000, 13124244544400000000000000000000000000000000000000000000000000000000000000000000000000000000, 13122043986200000000000000000000000000000000000000000000000000000000000000000000000000000000, 13119856129600000000000000000000000000000000000000000000000000000000000000000000000000000000, 13117680384600000000000000000000000000000000000000000000000000000000000000000000000000000000, 13115516202900000000000000000000000000000000000000000000000000000000000000000000000000000000, 13113363073100000000000000000000000000000000000000000000000000000000000000000000000000000000, 13111220518100000000000000000000000000000000000000000000000000000000000000000000000000000000, 13109088091200000000000000000000000000000000000000000000000000000000000000000000000000000000, 13106965373900000000000000000000000000000000000000000000000000000000000000000000000000000000, 13104851972900000000000000000000000000000000000000000000000000000000000000000000000000000000, 13102747518400000000000000000000000000000000000000000000000000000000000000000000000000000000]),
  (378821442886000, [13205357601400000000000000000000000000000000000000000000000000000000000000000000000000000000, 13200902569200000000000000000000000000000000000000000000000000000000000000000000000000000000, 13198386192900000000000000000000000000000000000000000000000000000000000000000000000000000000, 13195994569200000000000000000000000000000000000000000000000000000000000000000000000000000000, 13193468112400000000000000000000000000000000000000000000000000000000000000000000000000000000, 13190827373900000000000000000000000000000000000000000000000000000000000000000000000000000000, 13188124721400000000000000000000000000000000000000000000000000000000000000000000000000000000, 13185401274900000000000000000000000000000000000000000000000000000000000000000000000000000000, 13182683631300000000000000000000000000000000000000000000000000000000000000000000000000000000, 13179987456600000000000000000000000000000000000000000000000000000000000000000000000000000000, 13177321206000000000000000000000000000000000000000000000000000000000000000000000000000000000, 13174688842300000000000000000000000000000000000000000000000000000000000000000000000000000000, 13172091629300000000000000000000000000000000000000000000000000000000000000000000000000000000, 13169529264400000000000000000000000000000000000000000000000000000000000000000000000000000000, 13167000578000000000000000000000000000000000000000000000000000000000000000000000000000000000, 13164503959200000000000000000000000000000000000000000000000000000000000000000000000000000000, 13162037611100000000000000000000000000000000000000000000000000000000000000000000000000000000, 13159599699400000000000000000000000000000000000000000000000000000000000000000000000000000000, 13157188437700000000000000000000000000000000000000000000000000000000000000000000000000000000, 13154802131900000000000000000000000000000000000000000000000000000000000000000000000000000000, 13152439200900000000000000000000000000000000000000000000000000000000000000000000000000000000, 13150098183800000000000000000000000000000000000000000000000000000000000000000000000000000000, 13147777738100000000000000000000000000000000000000000000000000000000000000000000000000000000, 13145476633700000000000000000000000000000000000000000000000000000000000000000000000000000000, 13143193744900000000000000000000000000000000000000000000000000000000000000000000000000000000, 13140928041200000000000000000000000000000000000000000000000000000000000000000000000000000000, 13138678578600000000000000000000000000000000000000000000000000000000000000000000000000000000, 13136444490700000000000000000000000000000000000000000000000000000000000000000000000000000000, 13134224981100000000000000000000000000000000000000000000000000000000000000000000000000000000, 13132019315900000000000000000000000000000000000000000000000000000000000000000000000000000000, 13129826817300000000000000000000000000000000000000000000000000000000000000000000000000000000, 13127646858000000000000000000000000000000000000000000000000000000000000000000000000000000000, 13125478855800000000000000000000000000000000000000000000000000000000000000000000000000000000, 13123322269500000000000000000000000000000000000000000000000000000000000000000000000000000000, 13121176594500000000000000000000000000000000000000000000000000000000000000000000000000000000, 13119041359600000000000000000000000000000000000000000000000000000000000000000000000000000000, 13116916124000000000000000000000000000000000000000000000000000000000000000000000000000000000, 13114800474100000000000000000000000000000000000000000000000000000000000000000000000000000000, 13112694021500000000000000000000000000000000000000000000000000000000000000000000000000000000, 13110596400900000000000000000000000000000000000000000000000000000000000000000000000000000000]),
  (380925450902000, [13211087852300000000000000000000000000000000000000000000000000000000000000000000000000000000, 13206950980300000000000000000000000000000000000000000000000000000000000000000000000000000000, 13204625399800000000000000000000000000000000000000000000000000000000000000000000000000000000, 13202362865400000000000000000000000000000000000000000000000000000000000000000000000000000000, 13199930651100000000000000000000000000000000000000000000000000000000000000000000000000000000, 13197362107700000000000000000000000000000000000000000000000000000000000000000000000000000000, 13194716695600000000000000000000000000000000000000000000000000000000000000000000000000000000, 13192039920800000000000000000000000000000000000000000000000000000000000000000000000000000000, 13189361279600000000000000000000000000000000000000000000000000000000000000000000000000000000, 13186698429100000000000000000000000000000000000000000000000000000000000000000000000000000000, 13184061225100000000000000000000000000000000000000000000000000000000000000000000000000000000, 13181454632400000000000000000000000000000000000000000000000000000000000000000000000000000000, 13178880640400000000000000000000000000000000000000000000000000000000000000000000000000000000, 13176339478900000000000000000000000000000000000000000000000000000000000000000000000000000000, 13173830373300000000000000000000000000000000000000000000000000000000000000000000000000000000, 13171352009600000000000000000000000000000000000000000000000000000000000000000000000000000000, 13168902816400000000000000000000000000000000000000000000000000000000000000000000000000000000, 13166481133500000000000000000000000000000000000000000000000000000000000000000000000000000000, 13164085309900000000000000000000000000000000000000000000000000000000000000000000000000000000, 13161713758900000000000000000000000000000000000000000000000000000000000000000000000000000000, 13159364985300000000000000000000000000000000000000000000000000000000000000000000000000000000, 13157037597900000000000000000000000000000000000000000000000000000000000000000000000000000000, 13154730311300000000000000000000000000000000000000000000000000000000000000000000000000000000, 13152441942900000000000000000000000000000000000000000000000000000000000000000000000000000000, 13150171406800000000000000000000000000000000000000000000000000000000000000000000000000000000, 13147917706200000000000000000000000000000000000000000000000000000000000000000000000000000000, 13145679926000000000000000000000000000000000000000000000000000000000000000000000000000000000, 13143457224800000000000000000000000000000000000000000000000000000000000000000000000000000000, 13141248827500000000000000000000000000000000000000000000000000000000000000000000000000000000, 13139054019200000000000000000000000000000000000000000000000000000000000000000000000000000000, 13136872138900000000000000000000000000000000000000000000000000000000000000000000000000000000, 13134702573900000000000000000000000000000000000000000000000000000000000000000000000000000000, 13132544755200000000000000000000000000000000000000000000000000000000000000000000000000000000, 13130398153400000000000000000000000000000000000000000000000000000000000000000000000000000000, 13128262274400000000000000000000000000000000000000000000000000000000000000000000000000000000, 13126136656900000000000000000000000000000000000000000000000000000000000000000000000000000000, 13124020868400000000000000000000000000000000000000000000000000000000000000000000000000000000, 13121914503400000000000000000000000000000000000000000000000000000000000000000000000000000000, 13119817180900000000000000000000000000000000000000000000000000000000000000000000000000000000, 13117728542100000000000000000000000000000000000000000000000000000000000000000000000000000000]),
  (383029458918000, [13215982592000000000000000000000000000000000000000000000000000000000000000000000000000000000, 13212100122400000000000000000000000000000000000000000000000000000000000000000000000000000000, 13209958686400000000000000000000000000000000000000000000000000000000000000000000000000000000, 13207834612200000000000000000000000000000000000000000000000000000000000000000000000000000000, 13205510497800000000000000000000000000000000000000000000000000000000000000000000000000000000, 13203028646700000000000000000000000000000000000000000000000000000000000000000000000000000000, 13200454159600000000000000000000000000000000000000000000000000000000000000000000000000000000, 13197836413500000000000000000000000000000000000000000000000000000000000000000000000000000000, 13195207705700000000000000000000000000000000000000000000000000000000000000000000000000000000, 13192587772000000000000000000000000000000000000000000000000000000000000000000000000000000000, 13189988027200000000000000000000000000000000000000000000000000000000000000000000000000000000, 13187414611400000000000000000000000000000000000000000000000000000000000000000000000000000000, 13184870404300000000000000000000000000000000000000000000000000000000000000000000000000000000, 13182356312000000000000000000000000000000000000000000000000000000000000000000000000000000000, 13179872077300000000000000000000000000000000000000000000000000000000000000000000000000000000, 13177416784000000000000000000000000000000000000000000000000000000000000000000000000000000000, 13174989168900000000000000000000000000000000000000000000000000000000000000000000000000000000, 13172587812600000000000000000000000000000000000000000000000000000000000000000000000000000000, 13170211253900000000000000000000000000000000000000000000000000000000000000000000000000000000, 13167858056500000000000000000000000000000000000000000000000000000000000000000000000000000000, 13165526846500000000000000000000000000000000000000000000000000000000000000000000000000000000, 13163216330400000000000000000000000000000000000000000000000000000000000000000000000000000000, 13160925303100000000000000000000000000000000000000000000000000000000000000000000000000000000, 13158652648000000000000000000000000000000000000000000000000000000000000000000000000000000000, 13156397334500000000000000000000000000000000000000000000000000000000000000000000000000000000, 13154158412000000000000000000000000000000000000000000000000000000000000000000000000000000000, 13151935004800000000000000000000000000000000000000000000000000000000000000000000000000000000, 13149726305000000000000000000000000000000000000000000000000000000000000000000000000000000000, 13147531566700000000000000000000000000000000000000000000000000000000000000000000000000000000, 13145350100100000000000000000000000000000000000000000000000000000000000000000000000000000000, 13143181266200000000000000000000000000000000000000000000000000000000000000000000000000000000, 13141024471700000000000000000000000000000000000000000000000000000000000000000000000000000000, 13138879164800000000000000000000000000000000000000000000000000000000000000000000000000000000, 13136744831400000000000000000000000000000000000000000000000000000000000000000000000000000000, 13134620991300000000000000000000000000000000000000000000000000000000000000000000000000000000, 13132507195300000000000000000000000000000000000000000000000000000000000000000000000000000000, 13130403022100000000000000000000000000000000000000000000000000000000000000000000000000000000, 13128308076500000000000000000000000000000000000000000000000000000000000000000000000000000000, 13126221986600000000000000000000000000000000000000000000000000000000000000000000000000000000, 13124144402000000000000000000000000000000000000000000000000000000000000000000000000000000000]),
  (385133466934000, [13220421617800000000000000000000000000000000000000000000000000000000000000000000000000000000, 13216612207600000000000000000000000000000000000000000000000000000000000000000000000000000000, 13214568729000000000000000000000000000000000000000000000000000000000000000000000000000000000, 13212540414300000000000000000000000000000000000000000000000000000000000000000000000000000000, 13210303576500000000000000000000000000000000000000000000000000000000000000000000000000000000, 13207899249900000000000000000000000000000000000000000000000000000000000000000000000000000000, 13205392850700000000000000000000000000000000000000000000000000000000000000000000000000000000, 13202834713100000000000000000000000000000000000000000000000000000000000000000000000000000000, 13200258311700000000000000000000000000000000000000000000000000000000000000000000000000000000, 13197684554000000000000000000000000000000000000000000000000000000000000000000000000000000000, 13195125911000000000000000000000000000000000000000000000000000000000000000000000000000000000, 13192589425600000000000000000000000000000000000000000000000000000000000000000000000000000000, 13190078724100000000000000000000000000000000000000000000000000000000000000000000000000000000, 13187595320000000000000000000000000000000000000000000000000000000000000000000000000000000000, 13185139444100000000000000000000000000000000000000000000000000000000000000000000000000000000, 13182710571000000000000000000000000000000000000000000000000000000000000000000000000000000000, 13180307749600000000000000000000000000000000000000000000000000000000000000000000000000000000, 13177929810600000000000000000000000000000000000000000000000000000000000000000000000000000000, 13175575493300000000000000000000000000000000000000000000000000000000000000000000000000000000, 13173243523500000000000000000000000000000000000000000000000000000000000000000000000000000000, 13170932658500000000000000000000000000000000000000000000000000000000000000000000000000000000, 13168641712500000000000000000000000000000000000000000000000000000000000000000000000000000000, 13166369568500000000000000000000000000000000000000000000000000000000000000000000000000000000, 13164115183500000000000000000000000000000000000000000000000000000000000000000000000000000000, 13161877587800000000000000000000000000000000000000000000000000000000000000000000000000000000, 13159655882700000000000000000000000000000000000000000000000000000000000000000000000000000000, 13157449236400000000000000000000000000000000000000000000000000000000000000000000000000000000, 13155256878500000000000000000000000000000000000000000000000000000000000000000000000000000000, 13153078095500000000000000000000000000000000000000000000000000000000000000000000000000000000, 13150912226000000000000000000000000000000000000000000000000000000000000000000000000000000000, 13148758655400000000000000000000000000000000000000000000000000000000000000000000000000000000, 13146616812400000000000000000000000000000000000000000000000000000000000000000000000000000000, 13144486164500000000000000000000000000000000000000000000000000000000000000000000000000000000, 13142366214600000000000000000000000000000000000000000000000000000000000000000000000000000000, 13140256498000000000000000000000000000000000000000000000000000000000000000000000000000000000, 13138156579400000000000000000000000000000000000000000000000000000000000000000000000000000000, 13136066050200000000000000000000000000000000000000000000000000000000000000000000000000000000, 13133984526600000000000000000000000000000000000000000000000000000000000000000000000000000000, 13131911647000000000000000000000000000000000000000000000000000000000000000000000000000000000, 13129847070800000000000000000000000000000000000000000000000000000000000000000000000000000000]),
  (387237474950000, [13224439776100000000000000000000000000000000000000000000000000000000000000000000000000000000, 13220589174200000000000000000000000000000000000000000000000000000000000000000000000000000000, 13218560720100000000000000000000000000000000000000000000000000000000000000000000000000000000, 13216573438800000000000000000000000000000000000000000000000000000000000000000000000000000000, 13214388702400000000000000000000000000000000000000000000000000000000000000000000000000000000, 13212039665200000000000000000000000000000000000000000000000000000000000000000000000000000000, 13209587584700000000000000000000000000000000000000000000000000000000000000000000000000000000, 13207080802400000000000000000000000000000000000000000000000000000000000000000000000000000000, 13204552044200000000000000000000000000000000000000000000000000000000000000000000000000000000, 13202022136400000000000000000000000000000000000000000000000000000000000000000000000000000000, 13199503794200000000000000000000000000000000000000000000000000000000000000000000000000000000, 13197004434900000000000000000000000000000000000000000000000000000000000000000000000000000000, 13194528088800000000000000000000000000000000000000000000000000000000000000000000000000000000, 13192076652000000000000000000000000000000000000000000000000000000000000000000000000000000000, 13189650696500000000000000000000000000000000000000000000000000000000000000000000000000000000, 13187249990900000000000000000000000000000000000000000000000000000000000000000000000000000000, 13184873832000000000000000000000000000000000000000000000000000000000000000000000000000000000, 13182521257300000000000000000000000000000000000000000000000000000000000000000000000000000000, 13180191177900000000000000000000000000000000000000000000000000000000000000000000000000000000, 13177882461600000000000000000000000000000000000000000000000000000000000000000000000000000000, 13175593983700000000000000000000000000000000000000000000000000000000000000000000000000000000, 13173324656000000000000000000000000000000000000000000000000000000000000000000000000000000000, 13171073443200000000000000000000000000000000000000000000000000000000000000000000000000000000, 13168839370700000000000000000000000000000000000000000000000000000000000000000000000000000000, 13166621526700000000000000000000000000000000000000000000000000000000000000000000000000000000, 13164419061800000000000000000000000000000000000000000000000000000000000000000000000000000000, 13162231185900000000000000000000000000000000000000000000000000000000000000000000000000000000, 13160057165200000000000000000000000000000000000000000000000000000000000000000000000000000000, 13157896317600000000000000000000000000000000000000000000000000000000000000000000000000000000, 13155748009200000000000000000000000000000000000000000000000000000000000000000000000000000000, 13153611649700000000000000000000000000000000000000000000000000000000000000000000000000000000, 13151486689300000000000000000000000000000000000000000000000000000000000000000000000000000000, 13149372614600000000000000000000000000000000000000000000000000000000000000000000000000000000, 13147268945800000000000000000000000000000000000000000000000000000000000000000000000000000000, 13145175233700000000000000000000000000000000000000000000000000000000000000000000000000000000, 13143091057000000000000000000000000000000000000000000000000000000000000000000000000000000000, 13141016019900000000000000000000000000000000000000000000000000000000000000000000000000000000, 13138949750200000000000000000000000000000000000000000000000000000000000000000000000000000000, 13136891897100000000000000000000000000000000000000000000000000000000000000000000000000000000, 13134842129800000000000000000000000000000000000000000000000000000000000000000000000000000000]),
  (389341482966000, [13227893265500000000000000000000000000000000000000000000000000000000000000000000000000000000, 13223996490800000000000000000000000000000000000000000000000000000000000000000000000000000000, 13221950374200000000000000000000000000000000000000000000000000000000000000000000000000000000, 13219970323300000000000000000000000000000000000000000000000000000000000000000000000000000000, 13217809449000000000000000000000000000000000000000000000000000000000000000000000000000000000, 13215493907500000000000000000000000000000000000000000000000000000000000000000000000000000000, 13213080021500000000000000000000000000000000000000000000000000000000000000000000000000000000, 13210612996500000000000000000000000000000000000000000000000000000000000000000000000000000000, 13208123730400000000000000000000000000000000000000000000000000000000000000000000000000000000, 13205632083400000000000000000000000000000000000000000000000000000000000000000000000000000000, 13203150332800000000000000000000000000000000000000000000000000000000000000000000000000000000, 13200685764200000000000000000000000000000000000000000000000000000000000000000000000000000000, 13198242442300000000000000000000000000000000000000000000000000000000000000000000000000000000, 13195822378900000000000000000000000000000000000000000000000000000000000000000000000000000000, 13193426295100000000000000000000000000000000000000000000000000000000000000000000000000000000, 13191054113900000000000000000000000000000000000000000000000000000000000000000000000000000000, 13188705279700000000000000000000000000000000000000000000000000000000000000000000000000000000, 13186378963000000000000000000000000000000000000000000000000000000000000000000000000000000000, 13184074192300000000000000000000000000000000000000000000000000000000000000000000000000000000, 13181789937100000000000000000000000000000000000000000000000000000000000000000000000000000000, 13179525159600000000000000000000000000000000000000000000000000000000000000000000000000000000, 13177278846200000000000000000000000000000000000000000000000000000000000000000000000000000000, 13175050025100000000000000000000000000000000000000000000000000000000000000000000000000000000, 13172837776100000000000000000000000000000000000000000000000000000000000000000000000000000000, 13170641234200000000000000000000000000000000000000000000000000000000000000000000000000000000, 13168459590000000000000000000000000000000000000000000000000000000000000000000000000000000000, 13166292088500000000000000000000000000000000000000000000000000000000000000000000000000000000, 13164138026300000000000000000000000000000000000000000000000000000000000000000000000000000000, 13161996748000000000000000000000000000000000000000000000000000000000000000000000000000000000, 13159867643500000000000000000000000000000000000000000000000000000000000000000000000000000000, 13157750143600000000000000000000000000000000000000000000000000000000000000000000000000000000, 13155643717200000000000000000000000000000000000000000000000000000000000000000000000000000000, 13153547868100000000000000000000000000000000000000000000000000000000000000000000000000000000, 13151462131800000000000000000000000000000000000000000000000000000000000000000000000000000000, 13149386073100000000000000000000000000000000000000000000000000000000000000000000000000000000, 13147319283600000000000000000000000000000000000000000000000000000000000000000000000000000000, 13145261379300000000000000000000000000000000000000000000000000000000000000000000000000000000, 13143211998700000000000000000000000000000000000000000000000000000000000000000000000000000000, 13141170801100000000000000000000000000000000000000000000000000000000000000000000000000000000, 13139137465000000000000000000000000000000000000000000000000000000000000000000000000000000000]),
  (391445490982000, [13230663474600000000000000000000000000000000000000000000000000000000000000000000000000000000, 13226759854600000000000000000000000000000000000000000000000000000000000000000000000000000000, 13224705289900000000000000000000000000000000000000000000000000000000000000000000000000000000, 13222726455000000000000000000000000000000000000000000000000000000000000000000000000000000000, 13220577539300000000000000000000000000000000000000000000000000000000000000000000000000000000, 13218282514500000000000000000000000000000000000000000000000000000000000000000000000000000000, 13215894957700000000000000000000000000000000000000000000000000000000000000000000000000000000, 13213457722500000000000000000000000000000000000000000000000000000000000000000000000000000000, 13210999977100000000000000000000000000000000000000000000000000000000000000000000000000000000, 13208540421200000000000000000000000000000000000000000000000000000000000000000000000000000000, 13206090608800000000000000000000000000000000000000000000000000000000000000000000000000000000, 13203657407500000000000000000000000000000000000000000000000000000000000000000000000000000000, 13201244665400000000000000000000000000000000000000000000000000000000000000000000000000000000, 13198854304000000000000000000000000000000000000000000000000000000000000000000000000000000000, 13196487029000000000000000000000000000000000000000000000000000000000000000000000000000000000, 13194142790000000000000000000000000000000000000000000000000000000000000000000000000000000000, 13191821078900000000000000000000000000000000000000000000000000000000000000000000000000000000, 13189521122400000000000000000000000000000000000000000000000000000000000000000000000000000000, 13187242006400000000000000000000000000000000000000000000000000000000000000000000000000000000, 13184982755000000000000000000000000000000000000000000000000000000000000000000000000000000000, 13182742381000000000000000000000000000000000000000000000000000000000000000000000000000000000, 13180519916100000000000000000000000000000000000000000000000000000000000000000000000000000000, 13178314428700000000000000000000000000000000000000000000000000000000000000000000000000000000, 13176125034300000000000000000000000000000000000000000000000000000000000000000000000000000000, 13173950899200000000000000000000000000000000000000000000000000000000000000000000000000000000, 13171791241800000000000000000000000000000000000000000000000000000000000000000000000000000000, 13169645331600000000000000000000000000000000000000000000000000000000000000000000000000000000, 13167512487200000000000000000000000000000000000000000000000000000000000000000000000000000000, 13165392073000000000000000000000000000000000000000000000000000000000000000000000000000000000, 13163283496100000000000000000000000000000000000000000000000000000000000000000000000000000000, 13161186203700000000000000000000000000000000000000000000000000000000000000000000000000000000, 13159099679200000000000000000000000000000000000000000000000000000000000000000000000000000000, 13157023439600000000000000000000000000000000000000000000000000000000000000000000000000000000, 13154957032900000000000000000000000000000000000000000000000000000000000000000000000000000000, 13152900035100000000000000000000000000000000000000000000000000000000000000000000000000000000, 13150852048300000000000000000000000000000000000000000000000000000000000000000000000000000000, 13148812698400000000000000000000000000000000000000000000000000000000000000000000000000000000, 13146781633100000000000000000000000000000000000000000000000000000000000000000000000000000000, 13144758520200000000000000000000000000000000000000000000000000000000000000000000000000000000, 13142743046400000000000000000000000000000000000000000000000000000000000000000000000000000000]),
  (393549498998000, [13232712244000000000000000000000000000000000000000000000000000000000000000000000000000000000, 13228832075800000000000000000000000000000000000000000000000000000000000000000000000000000000, 13226791150600000000000000000000000000000000000000000000000000000000000000000000000000000000, 13224823602000000000000000000000000000000000000000000000000000000000000000000000000000000000, 13222688155400000000000000000000000000000000000000000000000000000000000000000000000000000000, 13220410411600000000000000000000000000000000000000000000000000000000000000000000000000000000, 13218043884800000000000000000000000000000000000000000000000000000000000000000000000000000000, 13215630659400000000000000000000000000000000000000000000000000000000000000000000000000000000, 13213198990300000000000000000000000000000000000000000000000000000000000000000000000000000000, 13210766770500000000000000000000000000000000000000000000000000000000000000000000000000000000, 13208344931200000000000000000000000000000000000000000000000000000000000000000000000000000000, 13205939898100000000000000000000000000000000000000000000000000000000000000000000000000000000, 13203555225000000000000000000000000000000000000000000000000000000000000000000000000000000000, 13201192649700000000000000000000000000000000000000000000000000000000000000000000000000000000, 13198852770900000000000000000000000000000000000000000000000000000000000000000000000000000000, 13196535483200000000000000000000000000000000000000000000000000000000000000000000000000000000, 13194240256000000000000000000000000000000000000000000000000000000000000000000000000000000000, 13191966313700000000000000000000000000000000000000000000000000000000000000000000000000000000, 13189712751100000000000000000000000000000000000000000000000000000000000000000000000000000000, 13187478607600000000000000000000000000000000000000000000000000000000000000000000000000000000, 13185262913900000000000000000000000000000000000000000000000000000000000000000000000000000000, 13183064720100000000000000000000000000000000000000000000000000000000000000000000000000000000, 13180883113000000000000000000000000000000000000000000000000000000000000000000000000000000000, 13178717225200000000000000000000000000000000000000000000000000000000000000000000000000000000, 13176566239000000000000000000000000000000000000000000000000000000000000000000000000000000000, 13174429387700000000000000000000000000000000000000000000000000000000000000000000000000000000, 13172305954700000000000000000000000000000000000000000000000000000000000000000000000000000000, 13170195270900000000000000000000000000000000000000000000000000000000000000000000000000000000, 13168096712600000000000000000000000000000000000000000000000000000000000000000000000000000000, 13166009697900000000000000000000000000000000000000000000000000000000000000000000000000000000, 13163933684100000000000000000000000000000000000000000000000000000000000000000000000000000000, 13161868164000000000000000000000000000000000000000000000000000000000000000000000000000000000, 13159812664000000000000000000000000000000000000000000000000000000000000000000000000000000000, 13157766740200000000000000000000000000000000000000000000000000000000000000000000000000000000, 13155729976800000000000000000000000000000000000000000000000000000000000000000000000000000000, 13153701983700000000000000000000000000000000000000000000000000000000000000000000000000000000, 13151682393900000000000000000000000000000000000000000000000000000000000000000000000000000000, 13149670862100000000000000000000000000000000000000000000000000000000000000000000000000000000, 13147667062800000000000000000000000000000000000000000000000000000000000000000000000000000000, 13145670688900000000000000000000000000000000000000000000000000000000000000000000000000000000]),
  (395653507014000, [13234047743400000000000000000000000000000000000000000000000000000000000000000000000000000000, 13230204649100000000000000000000000000000000000000000000000000000000000000000000000000000000, 13228193824900000000000000000000000000000000000000000000000000000000000000000000000000000000, 13226249883200000000000000000000000000000000000000000000000000000000000000000000000000000000, 13224134939500000000000000000000000000000000000000000000000000000000000000000000000000000000, 13221877272400000000000000000000000000000000000000000000000000000000000000000000000000000000, 13219531783700000000000000000000000000000000000000000000000000000000000000000000000000000000, 13217141002900000000000000000000000000000000000000000000000000000000000000000000000000000000, 13214733117300000000000000000000000000000000000000000000000000000000000000000000000000000000, 13212325739300000000000000000000000000000000000000000000000000000000000000000000000000000000, 13209929475100000000000000000000000000000000000000000000000000000000000000000000000000000000, 13207550458400000000000000000000000000000000000000000000000000000000000000000000000000000000, 13205192010500000000000000000000000000000000000000000000000000000000000000000000000000000000, 13202855697100000000000000000000000000000000000000000000000000000000000000000000000000000000, 13200541996700000000000000000000000000000000000000000000000000000000000000000000000000000000, 13198250723000000000000000000000000000000000000000000000000000000000000000000000000000000000, 13195981293800000000000000000000000000000000000000000000000000000000000000000000000000000000, 13193732901900000000000000000000000000000000000000000000000000000000000000000000000000000000, 13191504624100000000000000000000000000000000000000000000000000000000000000000000000000000000, 13189295490800000000000000000000000000000000000000000000000000000000000000000000000000000000, 13187104528700000000000000000000000000000000000000000000000000000000000000000000000000000000, 13184930788200000000000000000000000000000000000000000000000000000000000000000000000000000000, 13182773357800000000000000000000000000000000000000000000000000000000000000000000000000000000, 13180631373500000000000000000000000000000000000000000000000000000000000000000000000000000000, 13178504021400000000000000000000000000000000000000000000000000000000000000000000000000000000, 13176390539300000000000000000000000000000000000000000000000000000000000000000000000000000000, 13174290214900000000000000000000000000000000000000000000000000000000000000000000000000000000, 13172202383900000000000000000000000000000000000000000000000000000000000000000000000000000000, 13170126427400000000000000000000000000000000000000000000000000000000000000000000000000000000, 13168061768100000000000000000000000000000000000000000000000000000000000000000000000000000000, 13166007868100000000000000000000000000000000000000000000000000000000000000000000000000000000, 13163964225200000000000000000000000000000000000000000000000000000000000000000000000000000000, 13161930370200000000000000000000000000000000000000000000000000000000000000000000000000000000, 13159905864300000000000000000000000000000000000000000000000000000000000000000000000000000000, 13157890296300000000000000000000000000000000000000000000000000000000000000000000000000000000, 13155883280800000000000000000000000000000000000000000000000000000000000000000000000000000000, 13153884455400000000000000000000000000000000000000000000000000000000000000000000000000000000, 13151893479600000000000000000000000000000000000000000000000000000000000000000000000000000000, 13149910032300000000000000000000000000000000000000000000000000000000000000000000000000000000, 13147933810900000000000000000000000000000000000000000000000000000000000000000000000000000000]),
  (397757515030000, [13234692632300000000000000000000000000000000000000000000000000000000000000000000000000000000, 13230892273000000000000000000000000000000000000000000000000000000000000000000000000000000000, 13228918686400000000000000000000000000000000000000000000000000000000000000000000000000000000, 13227006035200000000000000000000000000000000000000000000000000000000000000000000000000000000, 13224918085500000000000000000000000000000000000000000000000000000000000000000000000000000000, 13222685059700000000000000000000000000000000000000000000000000000000000000000000000000000000, 13220363306300000000000000000000000000000000000000000000000000000000000000000000000000000000, 13217996201700000000000000000000000000000000000000000000000000000000000000000000000000000000, 13215612324100000000000000000000000000000000000000000000000000000000000000000000000000000000, 13213229395200000000000000000000000000000000000000000000000000000000000000000000000000000000, 13210857984100000000000000000000000000000000000000000000000000000000000000000000000000000000, 13208504127300000000000000000000000000000000000000000000000000000000000000000000000000000000, 13206171036800000000000000000000000000000000000000000000000000000000000000000000000000000000, 13203860179500000000000000000000000000000000000000000000000000000000000000000000000000000000, 13201571953000000000000000000000000000000000000000000000000000000000000000000000000000000000, 13199306109200000000000000000000000000000000000000000000000000000000000000000000000000000000, 13197062019900000000000000000000000000000000000000000000000000000000000000000000000000000000, 13194838845000000000000000000000000000000000000000000000000000000000000000000000000000000000, 13192635637800000000000000000000000000000000000000000000000000000000000000000000000000000000, 13190451412000000000000000000000000000000000000000000000000000000000000000000000000000000000, 13188285182500000000000000000000000000000000000000000000000000000000000000000000000000000000, 13186135991000000000000000000000000000000000000000000000000000000000000000000000000000000000, 13184002920300000000000000000000000000000000000000000000000000000000000000000000000000000000, 13181885101600000000000000000000000000000000000000000000000000000000000000000000000000000000, 13179781718200000000000000000000000000000000000000000000000000000000000000000000000000000000, 13177692005400000000000000000000000000000000000000000000000000000000000000000000000000000000, 13175615249700000000000000000000000000000000000000000000000000000000000000000000000000000000, 13173550786000000000000000000000000000000000000000000000000000000000000000000000000000000000, 13171497994900000000000000000000000000000000000000000000000000000000000000000000000000000000, 13169456299600000000000000000000000000000000000000000000000000000000000000000000000000000000, 13167425162700000000000000000000000000000000000000000000000000000000000000000000000000000000, 13165404083200000000000000000000000000000000000000000000000000000000000000000000000000000000, 13163392593200000000000000000000000000000000000000000000000000000000000000000000000000000000, 13161390255400000000000000000000000000000000000000000000000000000000000000000000000000000000, 13159396660800000000000000000000000000000000000000000000000000000000000000000000000000000000, 13157411426000000000000000000000000000000000000000000000000000000000000000000000000000000000, 13155434190900000000000000000000000000000000000000000000000000000000000000000000000000000000, 13153464617500000000000000000000000000000000000000000000000000000000000000000000000000000000, 13151502387400000000000000000000000000000000000000000000000000000000000000000000000000000000, 13149547200500000000000000000000000000000000000000000000000000000000000000000000000000000000]),
  (399861523046000, [13234674072900000000000000000000000000000000000000000000000000000000000000000000000000000000, 13230916738200000000000000000000000000000000000000000000000000000000000000000000000000000000, 13228981248000000000000000000000000000000000000000000000000000000000000000000000000000000000, 13227102769100000000000000000000000000000000000000000000000000000000000000000000000000000000, 13225045732000000000000000000000000000000000000000000000000000000000000000000000000000000000, 13222841223400000000000000000000000000000000000000000000000000000000000000000000000000000000, 13220546435700000000000000000000000000000000000000000000000000000000000000000000000000000000, 13218205408500000000000000000000000000000000000000000000000000000000000000000000000000000000, 13215847166100000000000000000000000000000000000000000000000000000000000000000000000000000000, 13213489691700000000000000000000000000000000000000000000000000000000000000000000000000000000, 13211143684700000000000000000000000000000000000000000000000000000000000000000000000000000000, 13208815231300000000000000000000000000000000000000000000000000000000000000000000000000000000, 13206507548700000000000000000000000000000000000000000000000000000000000000000000000000000000, 13204222088900000000000000000000000000000000000000000000000000000000000000000000000000000000, 13201959227500000000000000000000000000000000000000000000000000000000000000000000000000000000, 13199718694300000000000000000000000000000000000000000000000000000000000000000000000000000000, 13197499841600000000000000000000000000000000000000000000000000000000000000000000000000000000, 13195301812800000000000000000000000000000000000000000000000000000000000000000000000000000000, 13193123647800000000000000000000000000000000000000000000000000000000000000000000000000000000, 13190964349200000000000000000000000000000000000000000000000000000000000000000000000000000000, 13188822923100000000000000000000000000000000000000000000000000000000000000000000000000000000, 13186698403500000000000000000000000000000000000000000000000000000000000000000000000000000000, 13184589866400000000000000000000000000000000000000000000000000000000000000000000000000000000, 13182496437600000000000000000000000000000000000000000000000000000000000000000000000000000000, 13180417295000000000000000000000000000000000000000000000000000000000000000000000000000000000, 13178351670000000000000000000000000000000000000000000000000000000000000000000000000000000000, 13176298845100000000000000000000000000000000000000000000000000000000000000000000000000000000, 13174258152000000000000000000000000000000000000000000000000000000000000000000000000000000000, 13172228968700000000000000000000000000000000000000000000000000000000000000000000000000000000, 13170210716300000000000000000000000000000000000000000000000000000000000000000000000000000000, 13168202855600000000000000000000000000000000000000000000000000000000000000000000000000000000, 13166204884300000000000000000000000000000000000000000000000000000000000000000000000000000000, 13164216333800000000000000000000000000000000000000000000000000000000000000000000000000000000, 13162236766600000000000000000000000000000000000000000000000000000000000000000000000000000000, 13160265773500000000000000000000000000000000000000000000000000000000000000000000000000000000, 13158302971100000000000000000000000000000000000000000000000000000000000000000000000000000000, 13156348000400000000000000000000000000000000000000000000000000000000000000000000000000000000, 13154400523900000000000000000000000000000000000000000000000000000000000000000000000000000000, 13152460224400000000000000000000000000000000000000000000000000000000000000000000000000000000, 13150526803100000000000000000000000000000000000000000000000000000000000000000000000000000000]),
  (401965531062000, [13234016099700000000000000000000000000000000000000000000000000000000000000000000000000000000, 13230298272800000000000000000000000000000000000000000000000000000000000000000000000000000000, 13228399814600000000000000000000000000000000000000000000000000000000000000000000000000000000, 13226556241700000000000000000000000000000000000000000000000000000000000000000000000000000000, 13224532129000000000000000000000000000000000000000000000000000000000000000000000000000000000, 13222358770200000000000000000000000000000000000000000000000000000000000000000000000000000000, 13220093652700000000000000000000000000000000000000000000000000000000000000000000000000000000, 13217781145700000000000000000000000000000000000000000000000000000000000000000000000000000000, 13215450576900000000000000000000000000000000000000000000000000000000000000000000000000000000, 13213120172500000000000000000000000000000000000000000000000000000000000000000000000000000000, 13210800807600000000000000000000000000000000000000000000000000000000000000000000000000000000, 13208498686500000000000000000000000000000000000000000000000000000000000000000000000000000000, 13206217102400000000000000000000000000000000000000000000000000000000000000000000000000000000, 13203957553900000000000000000000000000000000000000000000000000000000000000000000000000000000, 13201720445800000000000000000000000000000000000000000000000000000000000000000000000000000000, 13199505525100000000000000000000000000000000000000000000000000000000000000000000000000000000, 13197312154900000000000000000000000000000000000000000000000000000000000000000000000000000000, 13195139484800000000000000000000000000000000000000000000000000000000000000000000000000000000, 13192986558400000000000000000000000000000000000000000000000000000000000000000000000000000000, 13190852379900000000000000000000000000000000000000000000000000000000000000000000000000000000, 13188735955300000000000000000000000000000000000000000000000000000000000000000000000000000000, 13186636317700000000000000000000000000000000000000000000000000000000000000000000000000000000, 13184552541400000000000000000000000000000000000000000000000000000000000000000000000000000000, 13182483749800000000000000000000000000000000000000000000000000000000000000000000000000000000, 13180429118400000000000000000000000000000000000000000000000000000000000000000000000000000000, 13178387875500000000000000000000000000000000000000000000000000000000000000000000000000000000, 13176359300700000000000000000000000000000000000000000000000000000000000000000000000000000000, 13174342722900000000000000000000000000000000000000000000000000000000000000000000000000000000, 13172337517400000000000000000000000000000000000000000000000000000000000000000000000000000000, 13170343102900000000000000000000000000000000000000000000000000000000000000000000000000000000, 13168358937800000000000000000000000000000000000000000000000000000000000000000000000000000000, 13166384518100000000000000000000000000000000000000000000000000000000000000000000000000000000, 13164419373500000000000000000000000000000000000000000000000000000000000000000000000000000000, 13162463065200000000000000000000000000000000000000000000000000000000000000000000000000000000, 13160515182800000000000000000000000000000000000000000000000000000000000000000000000000000000, 13158575342700000000000000000000000000000000000000000000000000000000000000000000000000000000, 13156643185100000000000000000000000000000000000000000000000000000000000000000000000000000000, 13154718372500000000000000000000000000000000000000000000000000000000000000000000000000000000, 13152800587700000000000000000000000000000000000000000000000000000000000000000000000000000000, 13150889532300000000000000000000000000000000000000000000000000000000000000000000000000000000]),
  (404069539078000, [13232733513300000000000000000000000000000000000000000000000000000000000000000000000000000000, 13229054531900000000000000000000000000000000000000000000000000000000000000000000000000000000, 13227193390200000000000000000000000000000000000000000000000000000000000000000000000000000000, 13225385477300000000000000000000000000000000000000000000000000000000000000000000000000000000, 13223395574300000000000000000000000000000000000000000000000000000000000000000000000000000000, 13221255085600000000000000000000000000000000000000000000000000000000000000000000000000000000, 13219021580500000000000000000000000000000000000000000000000000000000000000000000000000000000, 13216739550700000000000000000000000000000000000000000000000000000000000000000000000000000000, 13214438484200000000000000000000000000000000000000000000000000000000000000000000000000000000, 13212136775800000000000000000000000000000000000000000000000000000000000000000000000000000000, 13209845453200000000000000000000000000000000000000000000000000000000000000000000000000000000, 13207570847500000000000000000000000000000000000000000000000000000000000000000000000000000000, 13205316351800000000000000000000000000000000000000000000000000000000000000000000000000000000, 13203083541500000000000000000000000000000000000000000000000000000000000000000000000000000000, 13200872879400000000000000000000000000000000000000000000000000000000000000000000000000000000, 13198684156700000000000000000000000000000000000000000000000000000000000000000000000000000000, 13196516770300000000000000000000000000000000000000000000000000000000000000000000000000000000, 13194369895300000000000000000000000000000000000000000000000000000000000000000000000000000000, 13192242594700000000000000000000000000000000000000000000000000000000000000000000000000000000, 13190133887200000000000000000000000000000000000000000000000000000000000000000000000000000000, 13188042789800000000000000000000000000000000000000000000000000000000000000000000000000000000, 13185968343400000000000000000000000000000000000000000000000000000000000000000000000000000000, 13183909627500000000000000000000000000000000000000000000000000000000000000000000000000000000, 13181865769000000000000000000000000000000000000000000000000000000000000000000000000000000000, 13179835945500000000000000000000000000000000000000000000000000000000000000000000000000000000, 13177819386000000000000000000000000000000000000000000000000000000000000000000000000000000000, 13175815370200000000000000000000000000000000000000000000000000000000000000000000000000000000, 13173823226600000000000000000000000000000000000000000000000000000000000000000000000000000000, 13171842329400000000000000000000000000000000000000000000000000000000000000000000000000000000, 13169872096100000000000000000000000000000000000000000000000000000000000000000000000000000000, 13167911984100000000000000000000000000000000000000000000000000000000000000000000000000000000, 13165961487900000000000000000000000000000000000000000000000000000000000000000000000000000000, 13164020136100000000000000000000000000000000000000000000000000000000000000000000000000000000, 13162087488600000000000000000000000000000000000000000000000000000000000000000000000000000000, 13160163134300000000000000000000000000000000000000000000000000000000000000000000000000000000, 13158246688600000000000000000000000000000000000000000000000000000000000000000000000000000000, 13156337791100000000000000000000000000000000000000000000000000000000000000000000000000000000, 13154436103800000000000000000000000000000000000000000000000000000000000000000000000000000000, 13152541309300000000000000000000000000000000000000000000000000000000000000000000000000000000, 13150653109000000000000000000000000000000000000000000000000000000000000000000000000000000000]),
  (406173547094000, [13230840756300000000000000000000000000000000000000000000000000000000000000000000000000000000, 13227204981900000000000000000000000000000000000000000000000000000000000000000000000000000000, 13225382979600000000000000000000000000000000000000000000000000000000000000000000000000000000, 13223611849200000000000000000000000000000000000000000000000000000000000000000000000000000000, 13221657185000000000000000000000000000000000000000000000000000000000000000000000000000000000, 13219550696100000000000000000000000000000000000000000000000000000000000000000000000000000000, 13217350058200000000000000000000000000000000000000000000000000000000000000000000000000000000, 13215099838000000000000000000000000000000000000000000000000000000000000000000000000000000000, 13212829617600000000000000000000000000000000000000000000000000000000000000000000000000000000, 13210557902700000000000000000000000000000000000000000000000000000000000000000000000000000000, 13208295835600000000000000000000000000000000000000000000000000000000000000000000000000000000, 13206049854400000000000000000000000000000000000000000000000000000000000000000000000000000000, 13203823446000000000000000000000000000000000000000000000000000000000000000000000000000000000, 13201618265400000000000000000000000000000000000000000000000000000000000000000000000000000000, 13199434841700000000000000000000000000000000000000000000000000000000000000000000000000000000, 13197273020500000000000000000000000000000000000000000000000000000000000000000000000000000000, 13195132243100000000000000000000000000000000000000000000000000000000000000000000000000000000, 13193011721200000000000000000000000000000000000000000000000000000000000000000000000000000000, 13190910547400000000000000000000000000000000000000000000000000000000000000000000000000000000, 13188827764300000000000000000000000000000000000000000000000000000000000000000000000000000000, 13186762408100000000000000000000000000000000000000000000000000000000000000000000000000000000, 13184713535100000000000000000000000000000000000000000000000000000000000000000000000000000000, 13182680236900000000000000000000000000000000000000000000000000000000000000000000000000000000, 13180661649800000000000000000000000000000000000000000000000000000000000000000000000000000000, 13178656958300000000000000000000000000000000000000000000000000000000000000000000000000000000, 13176665396800000000000000000000000000000000000000000000000000000000000000000000000000000000, 13174686249000000000000000000000000000000000000000000000000000000000000000000000000000000000, 13172718845900000000000000000000000000000000000000000000000000000000000000000000000000000000, 13170762563700000000000000000000000000000000000000000000000000000000000000000000000000000000, 13168816820900000000000000000000000000000000000000000000000000000000000000000000000000000000, 13166881075700000000000000000000000000000000000000000000000000000000000000000000000000000000, 13164954822600000000000000000000000000000000000000000000000000000000000000000000000000000000, 13163037590400000000000000000000000000000000000000000000000000000000000000000000000000000000, 13161128938800000000000000000000000000000000000000000000000000000000000000000000000000000000, 13159228456600000000000000000000000000000000000000000000000000000000000000000000000000000000, 13157335758800000000000000000000000000000000000000000000000000000000000000000000000000000000, 13155450484800000000000000000000000000000000000000000000000000000000000000000000000000000000, 13153572296400000000000000000000000000000000000000000000000000000000000000000000000000000000, 13151700876000000000000000000000000000000000000000000000000000000000000000000000000000000000, 13149835925100000000000000000000000000000000000000000000000000000000000000000000000000000000]),
  (408277555110000, [13228364772300000000000000000000000000000000000000000000000000000000000000000000000000000000, 13224774587200000000000000000000000000000000000000000000000000000000000000000000000000000000, 13222992724700000000000000000000000000000000000000000000000000000000000000000000000000000000, 13221259025400000000000000000000000000000000000000000000000000000000000000000000000000000000, 13219340178500000000000000000000000000000000000000000000000000000000000000000000000000000000, 13217268282500000000000000000000000000000000000000000000000000000000000000000000000000000000, 13215101166200000000000000000000000000000000000000000000000000000000000000000000000000000000, 13212883488800000000000000000000000000000000000000000000000000000000000000000000000000000000, 13210644916000000000000000000000000000000000000000000000000000000000000000000000000000000000, 13208404039200000000000000000000000000000000000000000000000000000000000000000000000000000000, 13206172086300000000000000000000000000000000000000000000000000000000000000000000000000000000, 13203955577500000000000000000000000000000000000000000000000000000000000000000000000000000000, 13201758074800000000000000000000000000000000000000000000000000000000000000000000000000000000, 13199581300500000000000000000000000000000000000000000000000000000000000000000000000000000000, 13197425842600000000000000000000000000000000000000000000000000000000000000000000000000000000, 13195291598300000000000000000000000000000000000000000000000000000000000000000000000000000000, 13193178053200000000000000000000000000000000000000000000000000000000000000000000000000000000, 13191084457200000000000000000000000000000000000000000000000000000000000000000000000000000000, 13189009935600000000000000000000000000000000000000000000000000000000000000000000000000000000, 13186953559100000000000000000000000000000000000000000000000000000000000000000000000000000000, 13184914387400000000000000000000000000000000000000000000000000000000000000000000000000000000, 13182891496800000000000000000000000000000000000000000000000000000000000000000000000000000000, 13180883995500000000000000000000000000000000000000000000000000000000000000000000000000000000, 13178891033500000000000000000000000000000000000000000000000000000000000000000000000000000000, 13176911806700000000000000000000000000000000000000000000000000000000000000000000000000000000, 13174945558800000000000000000000000000000000000000000000000000000000000000000000000000000000, 13172991580700000000000000000000000000000000000000000000000000000000000000000000000000000000, 13171049209600000000000000000000000000000000000000000000000000000000000000000000000000000000, 13169117826200000000000000000000000000000000000000000000000000000000000000000000000000000000, 13167196852800000000000000000000000000000000000000000000000000000000000000000000000000000000, 13165285750400000000000000000000000000000000000000000000000000000000000000000000000000000000, 13163384015900000000000000000000000000000000000000000000000000000000000000000000000000000000, 13161491179500000000000000000000000000000000000000000000000000000000000000000000000000000000, 13159606802600000000000000000000000000000000000000000000000000000000000000000000000000000000, 13157730474500000000000000000000000000000000000000000000000000000000000000000000000000000000, 13155861811300000000000000000000000000000000000000000000000000000000000000000000000000000000, 13154000452800000000000000000000000000000000000000000000000000000000000000000000000000000000, 13152146061400000000000000000000000000000000000000000000000000000000000000000000000000000000, 13150298319900000000000000000000000000000000000000000000000000000000000000000000000000000000, 13148456930000000000000000000000000000000000000000000000000000000000000000000000000000000000]),
  (410381563126000, [13225339843400000000000000000000000000000000000000000000000000000000000000000000000000000000, 13221791648500000000000000000000000000000000000000000000000000000000000000000000000000000000, 13220048841800000000000000000000000000000000000000000000000000000000000000000000000000000000, 13218352228300000000000000000000000000000000000000000000000000000000000000000000000000000000, 13216469114800000000000000000000000000000000000000000000000000000000000000000000000000000000, 13214431841300000000000000000000000000000000000000000000000000000000000000000000000000000000, 13212298364800000000000000000000000000000000000000000000000000000000000000000000000000000000, 13210113444300000000000000000000000000000000000000000000000000000000000000000000000000000000, 13207906832300000000000000000000000000000000000000000000000000000000000000000000000000000000, 13205697196300000000000000000000000000000000000000000000000000000000000000000000000000000000, 13203495831800000000000000000000000000000000000000000000000000000000000000000000000000000000, 13201309319300000000000000000000000000000000000000000000000000000000000000000000000000000000, 13199141275300000000000000000000000000000000000000000000000000000000000000000000000000000000, 13196993471400000000000000000000000000000000000000000000000000000000000000000000000000000000, 13194866540300000000000000000000000000000000000000000000000000000000000000000000000000000000, 13192760420000000000000000000000000000000000000000000000000000000000000000000000000000000000, 13190674632900000000000000000000000000000000000000000000000000000000000000000000000000000000, 13188608462400000000000000000000000000000000000000000000000000000000000000000000000000000000, 13186561064000000000000000000000000000000000000000000000000000000000000000000000000000000000, 13184531535300000000000000000000000000000000000000000000000000000000000000000000000000000000, 13182518960000000000000000000000000000000000000000000000000000000000000000000000000000000000, 13180522435300000000000000000000000000000000000000000000000000000000000000000000000000000000, 13178541088200000000000000000000000000000000000000000000000000000000000000000000000000000000, 13176574084500000000000000000000000000000000000000000000000000000000000000000000000000000000, 13174620634100000000000000000000000000000000000000000000000000000000000000000000000000000000, 13172679992400000000000000000000000000000000000000000000000000000000000000000000000000000000, 13170751460600000000000000000000000000000000000000000000000000000000000000000000000000000000, 13168834384000000000000000000000000000000000000000000000000000000000000000000000000000000000, 13166928150800000000000000000000000000000000000000000000000000000000000000000000000000000000, 13165032189100000000000000000000000000000000000000000000000000000000000000000000000000000000, 13163145964900000000000000000000000000000000000000000000000000000000000000000000000000000000, 13161268979100000000000000000000000000000000000000000000000000000000000000000000000000000000, 13159400765600000000000000000000000000000000000000000000000000000000000000000000000000000000, 13157540888200000000000000000000000000000000000000000000000000000000000000000000000000000000, 13155688939000000000000000000000000000000000000000000000000000000000000000000000000000000000, 13153844535600000000000000000000000000000000000000000000000000000000000000000000000000000000, 13152007319700000000000000000000000000000000000000000000000000000000000000000000000000000000, 13150176955000000000000000000000000000000000000000000000000000000000000000000000000000000000, 13148353125400000000000000000000000000000000000000000000000000000000000000000000000000000000, 13146535533600000000000000000000000000000000000000000000000000000000000000000000000000000000]),
  (412485571142000, [13221791871800000000000000000000000000000000000000000000000000000000000000000000000000000000, 13218282526400000000000000000000000000000000000000000000000000000000000000000000000000000000, 13216577315700000000000000000000000000000000000000000000000000000000000000000000000000000000, 13214916963800000000000000000000000000000000000000000000000000000000000000000000000000000000, 13213069007800000000000000000000000000000000000000000000000000000000000000000000000000000000, 13211065922700000000000000000000000000000000000000000000000000000000000000000000000000000000, 13208965774200000000000000000000000000000000000000000000000000000000000000000000000000000000, 13206813421300000000000000000000000000000000000000000000000000000000000000000000000000000000, 13204638701600000000000000000000000000000000000000000000000000000000000000000000000000000000, 13202460350300000000000000000000000000000000000000000000000000000000000000000000000000000000, 13200289715800000000000000000000000000000000000000000000000000000000000000000000000000000000, 13198133420700000000000000000000000000000000000000000000000000000000000000000000000000000000, 13195995117500000000000000000000000000000000000000000000000000000000000000000000000000000000, 13193876609400000000000000000000000000000000000000000000000000000000000000000000000000000000, 13191778558500000000000000000000000000000000000000000000000000000000000000000000000000000000, 13189700930300000000000000000000000000000000000000000000000000000000000000000000000000000000, 13187643274000000000000000000000000000000000000000000000000000000000000000000000000000000000, 13185604898300000000000000000000000000000000000000000000000000000000000000000000000000000000, 13183584982900000000000000000000000000000000000000000000000000000000000000000000000000000000, 13181582648100000000000000000000000000000000000000000000000000000000000000000000000000000000, 13179596999000000000000000000000000000000000000000000000000000000000000000000000000000000000, 13177627152600000000000000000000000000000000000000000000000000000000000000000000000000000000, 13175672253700000000000000000000000000000000000000000000000000000000000000000000000000000000, 13173731484500000000000000000000000000000000000000000000000000000000000000000000000000000000, 13171804069400000000000000000000000000000000000000000000000000000000000000000000000000000000, 13169889276700000000000000000000000000000000000000000000000000000000000000000000000000000000, 13167986419100000000000000000000000000000000000000000000000000000000000000000000000000000000, 13166094852000000000000000000000000000000000000000000000000000000000000000000000000000000000, 13164213972300000000000000000000000000000000000000000000000000000000000000000000000000000000, 13162343215600000000000000000000000000000000000000000000000000000000000000000000000000000000, 13160482054400000000000000000000000000000000000000000000000000000000000000000000000000000000, 13158629995500000000000000000000000000000000000000000000000000000000000000000000000000000000, 13156786577500000000000000000000000000000000000000000000000000000000000000000000000000000000, 13154951368300000000000000000000000000000000000000000000000000000000000000000000000000000000, 13153123963700000000000000000000000000000000000000000000000000000000000000000000000000000000, 13151303984400000000000000000000000000000000000000000000000000000000000000000000000000000000, 13149491074600000000000000000000000000000000000000000000000000000000000000000000000000000000, 13147684900400000000000000000000000000000000000000000000000000000000000000000000000000000000, 13145885147500000000000000000000000000000000000000000000000000000000000000000000000000000000, 13144091520600000000000000000000000000000000000000000000000000000000000000000000000000000000]),
  (414589579158000, [13217737432400000000000000000000000000000000000000000000000000000000000000000000000000000000, 13214269995600000000000000000000000000000000000000000000000000000000000000000000000000000000, 13212602629600000000000000000000000000000000000000000000000000000000000000000000000000000000, 13210978072000000000000000000000000000000000000000000000000000000000000000000000000000000000, 13209164594700000000000000000000000000000000000000000000000000000000000000000000000000000000, 13207195024800000000000000000000000000000000000000000000000000000000000000000000000000000000, 13205127629500000000000000000000000000000000000000000000000000000000000000000000000000000000, 13203007396900000000000000000000000000000000000000000000000000000000000000000000000000000000, 13200864249900000000000000000000000000000000000000000000000000000000000000000000000000000000, 13198716980000000000000000000000000000000000000000000000000000000000000000000000000000000000, 13196576973200000000000000000000000000000000000000000000000000000000000000000000000000000000, 13194450878600000000000000000000000000000000000000000000000000000000000000000000000000000000, 13192342368600000000000000000000000000000000000000000000000000000000000000000000000000000000, 13190253263400000000000000000000000000000000000000000000000000000000000000000000000000000000, 13188184241400000000000000000000000000000000000000000000000000000000000000000000000000000000, 13186135284300000000000000000000000000000000000000000000000000000000000000000000000000000000, 13184105958100000000000000000000000000000000000000000000000000000000000000000000000000000000, 13182095588800000000000000000000000000000000000000000000000000000000000000000000000000000000, 13180103373500000000000000000000000000000000000000000000000000000000000000000000000000000000, 13178128450300000000000000000000000000000000000000000000000000000000000000000000000000000000, 13176169941500000000000000000000000000000000000000000000000000000000000000000000000000000000, 13174226980800000000000000000000000000000000000000000000000000000000000000000000000000000000, 13172298728900000000000000000000000000000000000000000000000000000000000000000000000000000000, 13170384383100000000000000000000000000000000000000000000000000000000000000000000000000000000, 13168483181700000000000000000000000000000000000000000000000000000000000000000000000000000000, 13166594405900000000000000000000000000000000000000000000000000000000000000000000000000000000, 13164717379900000000000000000000000000000000000000000000000000000000000000000000000000000000, 13162851469700000000000000000000000000000000000000000000000000000000000000000000000000000000, 13160996081500000000000000000000000000000000000000000000000000000000000000000000000000000000, 13159150659500000000000000000000000000000000000000000000000000000000000000000000000000000000, 13157314683800000000000000000000000000000000000000000000000000000000000000000000000000000000, 13155487667600000000000000000000000000000000000000000000000000000000000000000000000000000000, 13153669155300000000000000000000000000000000000000000000000000000000000000000000000000000000, 13151858720300000000000000000000000000000000000000000000000000000000000000000000000000000000, 13150055962700000000000000000000000000000000000000000000000000000000000000000000000000000000, 13148260507100000000000000000000000000000000000000000000000000000000000000000000000000000000, 13146472001600000000000000000000000000000000000000000000000000000000000000000000000000000000, 13144690114900000000000000000000000000000000000000000000000000000000000000000000000000000000, 13142914535800000000000000000000000000000000000000000000000000000000000000000000000000000000, 13141144971200000000000000000000000000000000000000000000000000000000000000000000000000000000]),
  (416693587174000, [13213196703200000000000000000000000000000000000000000000000000000000000000000000000000000000, 13209776348100000000000000000000000000000000000000000000000000000000000000000000000000000000, 13208148332700000000000000000000000000000000000000000000000000000000000000000000000000000000, 13206559584500000000000000000000000000000000000000000000000000000000000000000000000000000000, 13204780019200000000000000000000000000000000000000000000000000000000000000000000000000000000, 13202843255000000000000000000000000000000000000000000000000000000000000000000000000000000000, 13200807949800000000000000000000000000000000000000000000000000000000000000000000000000000000, 13198719281700000000000000000000000000000000000000000000000000000000000000000000000000000000, 13196607265400000000000000000000000000000000000000000000000000000000000000000000000000000000, 13194490737200000000000000000000000000000000000000000000000000000000000000000000000000000000, 13192381105300000000000000000000000000000000000000000000000000000000000000000000000000000000, 13190285030900000000000000000000000000000000000000000000000000000000000000000000000000000000, 13188206194100000000000000000000000000000000000000000000000000000000000000000000000000000000, 13186146422100000000000000000000000000000000000000000000000000000000000000000000000000000000, 13184106400200000000000000000000000000000000000000000000000000000000000000000000000000000000, 13182086118600000000000000000000000000000000000000000000000000000000000000000000000000000000, 13180085153000000000000000000000000000000000000000000000000000000000000000000000000000000000, 13178102840300000000000000000000000000000000000000000000000000000000000000000000000000000000, 13176138390000000000000000000000000000000000000000000000000000000000000000000000000000000000, 13174190952800000000000000000000000000000000000000000000000000000000000000000000000000000000, 13172259664800000000000000000000000000000000000000000000000000000000000000000000000000000000, 13170343672900000000000000000000000000000000000000000000000000000000000000000000000000000000, 13168442151300000000000000000000000000000000000000000000000000000000000000000000000000000000, 13166554310300000000000000000000000000000000000000000000000000000000000000000000000000000000, 13164679400700000000000000000000000000000000000000000000000000000000000000000000000000000000, 13162816715300000000000000000000000000000000000000000000000000000000000000000000000000000000, 13160965589500000000000000000000000000000000000000000000000000000000000000000000000000000000, 13159125399400000000000000000000000000000000000000000000000000000000000000000000000000000000, 13157295560600000000000000000000000000000000000000000000000000000000000000000000000000000000, 13155475526000000000000000000000000000000000000000000000000000000000000000000000000000000000, 13153664783200000000000000000000000000000000000000000000000000000000000000000000000000000000, 13151862852800000000000000000000000000000000000000000000000000000000000000000000000000000000, 13150069285500000000000000000000000000000000000000000000000000000000000000000000000000000000, 13148283660200000000000000000000000000000000000000000000000000000000000000000000000000000000, 13146505582200000000000000000000000000000000000000000000000000000000000000000000000000000000, 13144734681000000000000000000000000000000000000000000000000000000000000000000000000000000000, 13142970608400000000000000000000000000000000000000000000000000000000000000000000000000000000, 13141213037100000000000000000000000000000000000000000000000000000000000000000000000000000000, 13139461659000000000000000000000000000000000000000000000000000000000000000000000000000000000, 13137716183900000000000000000000000000000000000000000000000000000000000000000000000000000000]),
  (418797595190000, [13208199030600000000000000000000000000000000000000000000000000000000000000000000000000000000, 13204826357400000000000000000000000000000000000000000000000000000000000000000000000000000000, 13203238204400000000000000000000000000000000000000000000000000000000000000000000000000000000, 13201685104200000000000000000000000000000000000000000000000000000000000000000000000000000000, 13199938894900000000000000000000000000000000000000000000000000000000000000000000000000000000, 13198034269800000000000000000000000000000000000000000000000000000000000000000000000000000000, 13196030423800000000000000000000000000000000000000000000000000000000000000000000000000000000, 13193972772400000000000000000000000000000000000000000000000000000000000000000000000000000000, 13191891424400000000000000000000000000000000000000000000000000000000000000000000000000000000, 13189805248400000000000000000000000000000000000000000000000000000000000000000000000000000000, 13187725661500000000000000000000000000000000000000000000000000000000000000000000000000000000, 13185659326200000000000000000000000000000000000000000000000000000000000000000000000000000000, 13183609922800000000000000000000000000000000000000000000000000000000000000000000000000000000, 13181579279600000000000000000000000000000000000000000000000000000000000000000000000000000000, 13179568084800000000000000000000000000000000000000000000000000000000000000000000000000000000, 13177576333200000000000000000000000000000000000000000000000000000000000000000000000000000000, 13175603606700000000000000000000000000000000000000000000000000000000000000000000000000000000, 13173649250100000000000000000000000000000000000000000000000000000000000000000000000000000000, 13171712481600000000000000000000000000000000000000000000000000000000000000000000000000000000, 13169792462100000000000000000000000000000000000000000000000000000000000000000000000000000000, 13167888337800000000000000000000000000000000000000000000000000000000000000000000000000000000, 13165999266700000000000000000000000000000000000000000000000000000000000000000000000000000000, 13164124434200000000000000000000000000000000000000000000000000000000000000000000000000000000, 13162263061300000000000000000000000000000000000000000000000000000000000000000000000000000000, 13160414409500000000000000000000000000000000000000000000000000000000000000000000000000000000, 13158577782200000000000000000000000000000000000000000000000000000000000000000000000000000000, 13156752524500000000000000000000000000000000000000000000000000000000000000000000000000000000, 13154938022100000000000000000000000000000000000000000000000000000000000000000000000000000000, 13153133699200000000000000000000000000000000000000000000000000000000000000000000000000000000, 13151339016900000000000000000000000000000000000000000000000000000000000000000000000000000000, 13149553470500000000000000000000000000000000000000000000000000000000000000000000000000000000, 13147776587400000000000000000000000000000000000000000000000000000000000000000000000000000000, 13146007924800000000000000000000000000000000000000000000000000000000000000000000000000000000, 13144247067700000000000000000000000000000000000000000000000000000000000000000000000000000000, 13142493626500000000000000000000000000000000000000000000000000000000000000000000000000000000, 13140747235600000000000000000000000000000000000000000000000000000000000000000000000000000000, 13139007551300000000000000000000000000000000000000000000000000000000000000000000000000000000, 13137274250300000000000000000000000000000000000000000000000000000000000000000000000000000000, 13135547028200000000000000000000000000000000000000000000000000000000000000000000000000000000, 13133825598100000000000000000000000000000000000000000000000000000000000000000000000000000000])]
noncomputable def ttSpec8 : List (Nat × List Nat) := [
  (420901603206000, [13202777021600000000000000000000000000000000000000000000000000000000000000000000000000000000, 13199446737800000000000000000000000000000000000000000000000000000000000000000000000000000000, 13197896575400000000000000000000000000000000000000000000000000000000000000000000000000000000, 13196378130800000000000000000000000000000000000000000000000000000000000000000000000000000000, 13194664520100000000000000000000000000000000000000000000000000000000000000000000000000000000, 13192791393500000000000000000000000000000000000000000000000000000000000000000000000000000000, 13190818455600000000000000000000000000000000000000000000000000000000000000000000000000000000, 13188791340400000000000000000000000000000000000000000000000000000000000000000000000000000000, 13186740231900000000000000000000000000000000000000000000000000000000000000000000000000000000, 13184684015900000000000000000000000000000000000000000000000000000000000000000000000000000000, 13182634108500000000000000000000000000000000000000000000000000000000000000000000000000000000, 13180597168000000000000000000000000000000000000000000000000000000000000000000000000000000000, 13178576872400000000000000000000000000000000000000000000000000000000000000000000000000000000, 13176575050300000000000000000000000000000000000000000000000000000000000000000000000000000000, 13174592392900000000000000000000000000000000000000000000000000000000000000000000000000000000, 13172628899800000000000000000000000000000000000000000000000000000000000000000000000000000000, 13170684159300000000000000000000000000000000000000000000000000000000000000000000000000000000, 13168757523200000000000000000000000000000000000000000000000000000000000000000000000000000000, 13166848217900000000000000000000000000000000000000000000000000000000000000000000000000000000, 13164955412900000000000000000000000000000000000000000000000000000000000000000000000000000000, 13163078263400000000000000000000000000000000000000000000000000000000000000000000000000000000, 13161215936700000000000000000000000000000000000000000000000000000000000000000000000000000000, 13159367627300000000000000000000000000000000000000000000000000000000000000000000000000000000, 13157532565700000000000000000000000000000000000000000000000000000000000000000000000000000000, 13155710022700000000000000000000000000000000000000000000000000000000000000000000000000000000, 13153899310500000000000000000000000000000000000000000000000000000000000000000000000000000000, 13152099782900000000000000000000000000000000000000000000000000000000000000000000000000000000, 13150310833800000000000000000000000000000000000000000000000000000000000000000000000000000000, 13148531895600000000000000000000000000000000000000000000000000000000000000000000000000000000, 13146762436700000000000000000000000000000000000000000000000000000000000000000000000000000000, 13145001959500000000000000000000000000000000000000000000000000000000000000000000000000000000, 13143249998000000000000000000000000000000000000000000000000000000000000000000000000000000000, 13141506115400000000000000000000000000000000000000000000000000000000000000000000000000000000, 13139769902500000000000000000000000000000000000000000000000000000000000000000000000000000000, 13138040974900000000000000000000000000000000000000000000000000000000000000000000000000000000, 13136318972000000000000000000000000000000000000000000000000000000000000000000000000000000000, 13134603554400000000000000000000000000000000000000000000000000000000000000000000000000000000, 13132894403100000000000000000000000000000000000000000000000000000000000000000000000000000000, 13131191217400000000000000000000000000000000000000000000000000000000000000000000000000000000, 13129493713900000000000000000000000000000000000000000000000000000000000000000000000000000000]),
  (423005611222000, [13196959069900000000000000000000000000000000000000000000000000000000000000000000000000000000, 13193663404700000000000000000000000000000000000000000000000000000000000000000000000000000000, 13192147663900000000000000000000000000000000000000000000000000000000000000000000000000000000, 13190662065100000000000000000000000000000000000000000000000000000000000000000000000000000000, 13188980049000000000000000000000000000000000000000000000000000000000000000000000000000000000, 13187137785500000000000000000000000000000000000000000000000000000000000000000000000000000000, 13185195279300000000000000000000000000000000000000000000000000000000000000000000000000000000, 13183198286100000000000000000000000000000000000000000000000000000000000000000000000000000000, 13181177022300000000000000000000000000000000000000000000000000000000000000000000000000000000, 13179150374100000000000000000000000000000000000000000000000000000000000000000000000000000000, 13177129750900000000000000000000000000000000000000000000000000000000000000000000000000000000, 13175121806700000000000000000000000000000000000000000000000000000000000000000000000000000000, 13173130219800000000000000000000000000000000000000000000000000000000000000000000000000000000, 13171156822900000000000000000000000000000000000000000000000000000000000000000000000000000000, 13169202313500000000000000000000000000000000000000000000000000000000000000000000000000000000, 13167266699200000000000000000000000000000000000000000000000000000000000000000000000000000000, 13165349576800000000000000000000000000000000000000000000000000000000000000000000000000000000, 13163450307100000000000000000000000000000000000000000000000000000000000000000000000000000000, 13161568125300000000000000000000000000000000000000000000000000000000000000000000000000000000, 13159702209700000000000000000000000000000000000000000000000000000000000000000000000000000000, 13157851724300000000000000000000000000000000000000000000000000000000000000000000000000000000, 13156015845000000000000000000000000000000000000000000000000000000000000000000000000000000000, 13154193774800000000000000000000000000000000000000000000000000000000000000000000000000000000, 13152384752300000000000000000000000000000000000000000000000000000000000000000000000000000000, 13150588056300000000000000000000000000000000000000000000000000000000000000000000000000000000, 13148803007000000000000000000000000000000000000000000000000000000000000000000000000000000000, 13147028965600000000000000000000000000000000000000000000000000000000000000000000000000000000, 13145265333400000000000000000000000000000000000000000000000000000000000000000000000000000000, 13143511549700000000000000000000000000000000000000000000000000000000000000000000000000000000, 13141767089500000000000000000000000000000000000000000000000000000000000000000000000000000000, 13140031461500000000000000000000000000000000000000000000000000000000000000000000000000000000, 13138304205700000000000000000000000000000000000000000000000000000000000000000000000000000000, 13136584891200000000000000000000000000000000000000000000000000000000000000000000000000000000, 13134873113700000000000000000000000000000000000000000000000000000000000000000000000000000000, 13133168494000000000000000000000000000000000000000000000000000000000000000000000000000000000, 13131470676000000000000000000000000000000000000000000000000000000000000000000000000000000000, 13129779324800000000000000000000000000000000000000000000000000000000000000000000000000000000, 13128094125300000000000000000000000000000000000000000000000000000000000000000000000000000000, 13126414780500000000000000000000000000000000000000000000000000000000000000000000000000000000, 13124741010500000000000000000000000000000000000000000000000000000000000000000000000000000000]),
  (425109619238000, [13190765382400000000000000000000000000000000000000000000000000000000000000000000000000000000, 13187499497500000000000000000000000000000000000000000000000000000000000000000000000000000000, 13186014794700000000000000000000000000000000000000000000000000000000000000000000000000000000, 13184560050500000000000000000000000000000000000000000000000000000000000000000000000000000000, 13182908569300000000000000000000000000000000000000000000000000000000000000000000000000000000, 13181096561600000000000000000000000000000000000000000000000000000000000000000000000000000000, 13179184050400000000000000000000000000000000000000000000000000000000000000000000000000000000, 13177216783100000000000000000000000000000000000000000000000000000000000000000000000000000000, 13175224960000000000000000000000000000000000000000000000000000000000000000000000000000000000, 13173227453000000000000000000000000000000000000000000000000000000000000000000000000000000000, 13171235665200000000000000000000000000000000000000000000000000000000000000000000000000000000, 13169256251200000000000000000000000000000000000000000000000000000000000000000000000000000000, 13167292895700000000000000000000000000000000000000000000000000000000000000000000000000000000, 13165347441300000000000000000000000000000000000000000000000000000000000000000000000000000000, 13163420597400000000000000000000000000000000000000000000000000000000000000000000000000000000, 13161512384000000000000000000000000000000000000000000000000000000000000000000000000000000000, 13159622409500000000000000000000000000000000000000000000000000000000000000000000000000000000, 13157750046600000000000000000000000000000000000000000000000000000000000000000000000000000000, 13155894541100000000000000000000000000000000000000000000000000000000000000000000000000000000, 13154055081100000000000000000000000000000000000000000000000000000000000000000000000000000000, 13152230840000000000000000000000000000000000000000000000000000000000000000000000000000000000, 13150421002200000000000000000000000000000000000000000000000000000000000000000000000000000000, 13148624778700000000000000000000000000000000000000000000000000000000000000000000000000000000, 13146841416000000000000000000000000000000000000000000000000000000000000000000000000000000000, 13145070200000000000000000000000000000000000000000000000000000000000000000000000000000000000, 13143310458000000000000000000000000000000000000000000000000000000000000000000000000000000000, 13141561557800000000000000000000000000000000000000000000000000000000000000000000000000000000, 13139822907000000000000000000000000000000000000000000000000000000000000000000000000000000000, 13138093951100000000000000000000000000000000000000000000000000000000000000000000000000000000, 13136374171000000000000000000000000000000000000000000000000000000000000000000000000000000000, 13134663080900000000000000000000000000000000000000000000000000000000000000000000000000000000, 13132960226200000000000000000000000000000000000000000000000000000000000000000000000000000000, 13131265180900000000000000000000000000000000000000000000000000000000000000000000000000000000, 13129577545500000000000000000000000000000000000000000000000000000000000000000000000000000000, 13127896945500000000000000000000000000000000000000000000000000000000000000000000000000000000, 13126223028900000000000000000000000000000000000000000000000000000000000000000000000000000000, 13124555464700000000000000000000000000000000000000000000000000000000000000000000000000000000, 13122893941800000000000000000000000000000000000000000000000000000000000000000000000000000000, 13121238166600000000000000000000000000000000000000000000000000000000000000000000000000000000, 13119587862700000000000000000000000000000000000000000000000000000000000000000000000000000000]),
  (427213627255000, [13184210788900000000000000000000000000000000000000000000000000000000000000000000000000000000, 13180975775600000000000000000000000000000000000000000000000000000000000000000000000000000000, 13179520271400000000000000000000000000000000000000000000000000000000000000000000000000000000, 13178094923400000000000000000000000000000000000000000000000000000000000000000000000000000000, 13176473122800000000000000000000000000000000000000000000000000000000000000000000000000000000, 13174690821700000000000000000000000000000000000000000000000000000000000000000000000000000000, 13172807851000000000000000000000000000000000000000000000000000000000000000000000000000000000, 13170869856900000000000000000000000000000000000000000000000000000000000000000000000000000000, 13168906992700000000000000000000000000000000000000000000000000000000000000000000000000000000, 13166938113400000000000000000000000000000000000000000000000000000000000000000000000000000000, 13164974620700000000000000000000000000000000000000000000000000000000000000000000000000000000, 13163023178000000000000000000000000000000000000000000000000000000000000000000000000000000000, 13161087483700000000000000000000000000000000000000000000000000000000000000000000000000000000, 13159169396500000000000000000000000000000000000000000000000000000000000000000000000000000000, 13157269642800000000000000000000000000000000000000000000000000000000000000000000000000000000, 13155388258800000000000000000000000000000000000000000000000000000000000000000000000000000000, 13153524868500000000000000000000000000000000000000000000000000000000000000000000000000000000, 13151678858200000000000000000000000000000000000000000000000000000000000000000000000000000000, 13149849486200000000000000000000000000000000000000000000000000000000000000000000000000000000, 13148035951800000000000000000000000000000000000000000000000000000000000000000000000000000000, 13146237438300000000000000000000000000000000000000000000000000000000000000000000000000000000, 13144453138900000000000000000000000000000000000000000000000000000000000000000000000000000000, 13142682272900000000000000000000000000000000000000000000000000000000000000000000000000000000, 13140924094100000000000000000000000000000000000000000000000000000000000000000000000000000000, 13139177895400000000000000000000000000000000000000000000000000000000000000000000000000000000, 13137443010200000000000000000000000000000000000000000000000000000000000000000000000000000000, 13135718812500000000000000000000000000000000000000000000000000000000000000000000000000000000, 13134004715700000000000000000000000000000000000000000000000000000000000000000000000000000000, 13132300170600000000000000000000000000000000000000000000000000000000000000000000000000000000, 13130604663100000000000000000000000000000000000000000000000000000000000000000000000000000000, 13128917712600000000000000000000000000000000000000000000000000000000000000000000000000000000, 13127238868800000000000000000000000000000000000000000000000000000000000000000000000000000000, 13125567710300000000000000000000000000000000000000000000000000000000000000000000000000000000, 13123903842100000000000000000000000000000000000000000000000000000000000000000000000000000000, 13122246893300000000000000000000000000000000000000000000000000000000000000000000000000000000, 13120596515900000000000000000000000000000000000000000000000000000000000000000000000000000000, 13118952382800000000000000000000000000000000000000000000000000000000000000000000000000000000, 13117314185800000000000000000000000000000000000000000000000000000000000000000000000000000000, 13115681635000000000000000000000000000000000000000000000000000000000000000000000000000000000, 13114054456700000000000000000000000000000000000000000000000000000000000000000000000000000000]),
  (429317635271000, [13177313761200000000000000000000000000000000000000000000000000000000000000000000000000000000, 13174112674300000000000000000000000000000000000000000000000000000000000000000000000000000000, 13172685931300000000000000000000000000000000000000000000000000000000000000000000000000000000, 13171289343600000000000000000000000000000000000000000000000000000000000000000000000000000000, 13169696680600000000000000000000000000000000000000000000000000000000000000000000000000000000, 13167943563400000000000000000000000000000000000000000000000000000000000000000000000000000000, 13166089582300000000000000000000000000000000000000000000000000000000000000000000000000000000, 13164180270300000000000000000000000000000000000000000000000000000000000000000000000000000000, 13162245739100000000000000000000000000000000000000000000000000000000000000000000000000000000, 13160304836100000000000000000000000000000000000000000000000000000000000000000000000000000000, 13158368971900000000000000000000000000000000000000000000000000000000000000000000000000000000, 13156444825800000000000000000000000000000000000000000000000000000000000000000000000000000000, 13154536115800000000000000000000000000000000000000000000000000000000000000000000000000000000, 13152644721500000000000000000000000000000000000000000000000000000000000000000000000000000000, 13150771389100000000000000000000000000000000000000000000000000000000000000000000000000000000, 13148916173700000000000000000000000000000000000000000000000000000000000000000000000000000000, 13147078716400000000000000000000000000000000000000000000000000000000000000000000000000000000, 13145258418800000000000000000000000000000000000000000000000000000000000000000000000000000000, 13143454552700000000000000000000000000000000000000000000000000000000000000000000000000000000, 13141666329100000000000000000000000000000000000000000000000000000000000000000000000000000000, 13139892941700000000000000000000000000000000000000000000000000000000000000000000000000000000, 13138133592900000000000000000000000000000000000000000000000000000000000000000000000000000000, 13136387510000000000000000000000000000000000000000000000000000000000000000000000000000000000, 13134653954200000000000000000000000000000000000000000000000000000000000000000000000000000000, 13132932224800000000000000000000000000000000000000000000000000000000000000000000000000000000, 13131221661400000000000000000000000000000000000000000000000000000000000000000000000000000000, 13129521643600000000000000000000000000000000000000000000000000000000000000000000000000000000, 13127831589800000000000000000000000000000000000000000000000000000000000000000000000000000000, 13126150955600000000000000000000000000000000000000000000000000000000000000000000000000000000, 13124479231800000000000000000000000000000000000000000000000000000000000000000000000000000000, 13122815941700000000000000000000000000000000000000000000000000000000000000000000000000000000, 13121160639500000000000000000000000000000000000000000000000000000000000000000000000000000000, 13119512907500000000000000000000000000000000000000000000000000000000000000000000000000000000, 13117872354300000000000000000000000000000000000000000000000000000000000000000000000000000000, 13116238612900000000000000000000000000000000000000000000000000000000000000000000000000000000, 13114611338400000000000000000000000000000000000000000000000000000000000000000000000000000000, 13112990206900000000000000000000000000000000000000000000000000000000000000000000000000000000, 13111374913500000000000000000000000000000000000000000000000000000000000000000000000000000000, 13109765171000000000000000000000000000000000000000000000000000000000000000000000000000000000, 13108160708500000000000000000000000000000000000000000000000000000000000000000000000000000000]),
  (431421643287000, [13170100299500000000000000000000000000000000000000000000000000000000000000000000000000000000, 13166931813300000000000000000000000000000000000000000000000000000000000000000000000000000000, 13165533824400000000000000000000000000000000000000000000000000000000000000000000000000000000, 13164165934100000000000000000000000000000000000000000000000000000000000000000000000000000000, 13162602023900000000000000000000000000000000000000000000000000000000000000000000000000000000, 13160877476800000000000000000000000000000000000000000000000000000000000000000000000000000000, 13159051750100000000000000000000000000000000000000000000000000000000000000000000000000000000, 13157170328700000000000000000000000000000000000000000000000000000000000000000000000000000000, 13155263317300000000000000000000000000000000000000000000000000000000000000000000000000000000, 13153349573700000000000000000000000000000000000000000000000000000000000000000000000000000000, 13151440526400000000000000000000000000000000000000000000000000000000000000000000000000000000, 13149542876000000000000000000000000000000000000000000000000000000000000000000000000000000000, 13147660362700000000000000000000000000000000000000000000000000000000000000000000000000000000, 13145794887400000000000000000000000000000000000000000000000000000000000000000000000000000000, 13143947217000000000000000000000000000000000000000000000000000000000000000000000000000000000, 13142117425400000000000000000000000000000000000000000000000000000000000000000000000000000000, 13140305170600000000000000000000000000000000000000000000000000000000000000000000000000000000, 13138509869300000000000000000000000000000000000000000000000000000000000000000000000000000000, 13136730806600000000000000000000000000000000000000000000000000000000000000000000000000000000, 13134967205200000000000000000000000000000000000000000000000000000000000000000000000000000000, 13133218269000000000000000000000000000000000000000000000000000000000000000000000000000000000, 13131483209400000000000000000000000000000000000000000000000000000000000000000000000000000000, 13129761261800000000000000000000000000000000000000000000000000000000000000000000000000000000, 13128051694300000000000000000000000000000000000000000000000000000000000000000000000000000000, 13126353812600000000000000000000000000000000000000000000000000000000000000000000000000000000, 13124666962000000000000000000000000000000000000000000000000000000000000000000000000000000000, 13122990527300000000000000000000000000000000000000000000000000000000000000000000000000000000, 13121323931800000000000000000000000000000000000000000000000000000000000000000000000000000000, 13119666635400000000000000000000000000000000000000000000000000000000000000000000000000000000, 13118018132900000000000000000000000000000000000000000000000000000000000000000000000000000000, 13116377951900000000000000000000000000000000000000000000000000000000000000000000000000000000, 13114745649800000000000000000000000000000000000000000000000000000000000000000000000000000000, 13113120812600000000000000000000000000000000000000000000000000000000000000000000000000000000, 13111503052300000000000000000000000000000000000000000000000000000000000000000000000000000000, 13109892004600000000000000000000000000000000000000000000000000000000000000000000000000000000, 13108287328000000000000000000000000000000000000000000000000000000000000000000000000000000000, 13106688701200000000000000000000000000000000000000000000000000000000000000000000000000000000, 13105095822000000000000000000000000000000000000000000000000000000000000000000000000000000000, 13103508405900000000000000000000000000000000000000000000000000000000000000000000000000000000, 13101926184300000000000000000000000000000000000000000000000000000000000000000000000000000000]),
  (433525651303000, [13162596454700000000000000000000000000000000000000000000000000000000000000000000000000000000, 13159455747300000000000000000000000000000000000000000000000000000000000000000000000000000000, 13158086421600000000000000000000000000000000000000000000000000000000000000000000000000000000, 13156747182500000000000000000000000000000000000000000000000000000000000000000000000000000000, 13155211476500000000000000000000000000000000000000000000000000000000000000000000000000000000, 13153514644400000000000000000000000000000000000000000000000000000000000000000000000000000000, 13151716190900000000000000000000000000000000000000000000000000000000000000000000000000000000, 13149861646600000000000000000000000000000000000000000000000000000000000000000000000000000000, 13147981150000000000000000000000000000000000000000000000000000000000000000000000000000000000, 13146093585800000000000000000000000000000000000000000000000000000000000000000000000000000000, 13144210405800000000000000000000000000000000000000000000000000000000000000000000000000000000, 13142338332100000000000000000000000000000000000000000000000000000000000000000000000000000000, 13140481125000000000000000000000000000000000000000000000000000000000000000000000000000000000, 13138640704900000000000000000000000000000000000000000000000000000000000000000000000000000000, 13136817856200000000000000000000000000000000000000000000000000000000000000000000000000000000, 13135012669200000000000000000000000000000000000000000000000000000000000000000000000000000000, 13133224816800000000000000000000000000000000000000000000000000000000000000000000000000000000, 13131453729100000000000000000000000000000000000000000000000000000000000000000000000000000000, 13129698703000000000000000000000000000000000000000000000000000000000000000000000000000000000, 13127958972200000000000000000000000000000000000000000000000000000000000000000000000000000000, 13126233749900000000000000000000000000000000000000000000000000000000000000000000000000000000, 13124522256000000000000000000000000000000000000000000000000000000000000000000000000000000000, 13122823733300000000000000000000000000000000000000000000000000000000000000000000000000000000, 13121137456800000000000000000000000000000000000000000000000000000000000000000000000000000000, 13119462738100000000000000000000000000000000000000000000000000000000000000000000000000000000, 13117798928000000000000000000000000000000000000000000000000000000000000000000000000000000000, 13116145416200000000000000000000000000000000000000000000000000000000000000000000000000000000, 13114501630300000000000000000000000000000000000000000000000000000000000000000000000000000000, 13112867034600000000000000000000000000000000000000000000000000000000000000000000000000000000, 13111241127600000000000000000000000000000000000000000000000000000000000000000000000000000000, 13109623440200000000000000000000000000000000000000000000000000000000000000000000000000000000, 13108013533600000000000000000000000000000000000000000000000000000000000000000000000000000000, 13106410996400000000000000000000000000000000000000000000000000000000000000000000000000000000, 13104815443700000000000000000000000000000000000000000000000000000000000000000000000000000000, 13103226514100000000000000000000000000000000000000000000000000000000000000000000000000000000, 13101643868500000000000000000000000000000000000000000000000000000000000000000000000000000000, 13100067188100000000000000000000000000000000000000000000000000000000000000000000000000000000, 13098496173200000000000000000000000000000000000000000000000000000000000000000000000000000000, 13096930541300000000000000000000000000000000000000000000000000000000000000000000000000000000, 13095370026200000000000000000000000000000000000000000000000000000000000000000000000000000000]),
  (435629659319000, [13154821754200000000000000000000000000000000000000000000000000000000000000000000000000000000, 13151706965500000000000000000000000000000000000000000000000000000000000000000000000000000000, 13150366157500000000000000000000000000000000000000000000000000000000000000000000000000000000, 13149055009400000000000000000000000000000000000000000000000000000000000000000000000000000000, 13147546513700000000000000000000000000000000000000000000000000000000000000000000000000000000, 13145876211500000000000000000000000000000000000000000000000000000000000000000000000000000000, 13144103802600000000000000000000000000000000000000000000000000000000000000000000000000000000, 13142274928500000000000000000000000000000000000000000000000000000000000000000000000000000000, 13140419785700000000000000000000000000000000000000000000000000000000000000000000000000000000, 13138557291600000000000000000000000000000000000000000000000000000000000000000000000000000000, 13136698920000000000000000000000000000000000000000000000000000000000000000000000000000000000, 13134851410200000000000000000000000000000000000000000000000000000000000000000000000000000000, 13133018537700000000000000000000000000000000000000000000000000000000000000000000000000000000, 13131202236300000000000000000000000000000000000000000000000000000000000000000000000000000000, 13129403303400000000000000000000000000000000000000000000000000000000000000000000000000000000, 13127621841400000000000000000000000000000000000000000000000000000000000000000000000000000000, 13125857534400000000000000000000000000000000000000000000000000000000000000000000000000000000, 13124109823100000000000000000000000000000000000000000000000000000000000000000000000000000000, 13122378014300000000000000000000000000000000000000000000000000000000000000000000000000000000, 13120661350400000000000000000000000000000000000000000000000000000000000000000000000000000000, 13118959053000000000000000000000000000000000000000000000000000000000000000000000000000000000, 13117270349600000000000000000000000000000000000000000000000000000000000000000000000000000000, 13115594489800000000000000000000000000000000000000000000000000000000000000000000000000000000, 13113930754700000000000000000000000000000000000000000000000000000000000000000000000000000000, 13112278461800000000000000000000000000000000000000000000000000000000000000000000000000000000, 13110636966700000000000000000000000000000000000000000000000000000000000000000000000000000000, 13109005664000000000000000000000000000000000000000000000000000000000000000000000000000000000, 13107383985400000000000000000000000000000000000000000000000000000000000000000000000000000000, 13105771399100000000000000000000000000000000000000000000000000000000000000000000000000000000, 13104167407100000000000000000000000000000000000000000000000000000000000000000000000000000000, 13102571543700000000000000000000000000000000000000000000000000000000000000000000000000000000, 13100983372900000000000000000000000000000000000000000000000000000000000000000000000000000000, 13099402486300000000000000000000000000000000000000000000000000000000000000000000000000000000, 13097828501500000000000000000000000000000000000000000000000000000000000000000000000000000000, 13096261059700000000000000000000000000000000000000000000000000000000000000000000000000000000, 13094699823900000000000000000000000000000000000000000000000000000000000000000000000000000000, 13093144477600000000000000000000000000000000000000000000000000000000000000000000000000000000, 13091594723200000000000000000000000000000000000000000000000000000000000000000000000000000000, 13090050280100000000000000000000000000000000000000000000000000000000000000000000000000000000, 13088510884000000000000000000000000000000000000000000000000000000000000000000000000000000000]),
  (437733667335000, [13146793703000000000000000000000000000000000000000000000000000000000000000000000000000000000, 13143707334800000000000000000000000000000000000000000000000000000000000000000000000000000000, 13142394550900000000000000000000000000000000000000000000000000000000000000000000000000000000, 13141110160100000000000000000000000000000000000000000000000000000000000000000000000000000000, 13139627372700000000000000000000000000000000000000000000000000000000000000000000000000000000, 13137982122200000000000000000000000000000000000000000000000000000000000000000000000000000000, 13136234350300000000000000000000000000000000000000000000000000000000000000000000000000000000, 13134429816700000000000000000000000000000000000000000000000000000000000000000000000000000000, 13132598772600000000000000000000000000000000000000000000000000000000000000000000000000000000, 13130760162100000000000000000000000000000000000000000000000000000000000000000000000000000000, 13128925473700000000000000000000000000000000000000000000000000000000000000000000000000000000, 13127101456600000000000000000000000000000000000000000000000000000000000000000000000000000000, 13125291893600000000000000000000000000000000000000000000000000000000000000000000000000000000, 13123498725700000000000000000000000000000000000000000000000000000000000000000000000000000000, 13121722756900000000000000000000000000000000000000000000000000000000000000000000000000000000, 13119964096300000000000000000000000000000000000000000000000000000000000000000000000000000000, 13118222435400000000000000000000000000000000000000000000000000000000000000000000000000000000, 13116497221800000000000000000000000000000000000000000000000000000000000000000000000000000000, 13114787769400000000000000000000000000000000000000000000000000000000000000000000000000000000, 13113093327800000000000000000000000000000000000000000000000000000000000000000000000000000000, 13111413125300000000000000000000000000000000000000000000000000000000000000000000000000000000, 13109746395800000000000000000000000000000000000000000000000000000000000000000000000000000000, 13108092395000000000000000000000000000000000000000000000000000000000000000000000000000000000, 13106450409700000000000000000000000000000000000000000000000000000000000000000000000000000000, 13104819762500000000000000000000000000000000000000000000000000000000000000000000000000000000, 13103199813900000000000000000000000000000000000000000000000000000000000000000000000000000000, 13101589962600000000000000000000000000000000000000000000000000000000000000000000000000000000, 13099989644700000000000000000000000000000000000000000000000000000000000000000000000000000000, 13098398331700000000000000000000000000000000000000000000000000000000000000000000000000000000, 13096815529200000000000000000000000000000000000000000000000000000000000000000000000000000000, 13095240774400000000000000000000000000000000000000000000000000000000000000000000000000000000, 13093673634100000000000000000000000000000000000000000000000000000000000000000000000000000000, 13092113702600000000000000000000000000000000000000000000000000000000000000000000000000000000, 13090560599700000000000000000000000000000000000000000000000000000000000000000000000000000000, 13089013969000000000000000000000000000000000000000000000000000000000000000000000000000000000, 13087473475500000000000000000000000000000000000000000000000000000000000000000000000000000000, 13085938804600000000000000000000000000000000000000000000000000000000000000000000000000000000, 13084409660600000000000000000000000000000000000000000000000000000000000000000000000000000000, 13082885764600000000000000000000000000000000000000000000000000000000000000000000000000000000, 13081366853900000000000000000000000000000000000000000000000000000000000000000000000000000000]),
  (439837675351000, [13138533979600000000000000000000000000000000000000000000000000000000000000000000000000000000, 13135477645500000000000000000000000000000000000000000000000000000000000000000000000000000000, 13134191375300000000000000000000000000000000000000000000000000000000000000000000000000000000, 13132931741000000000000000000000000000000000000000000000000000000000000000000000000000000000, 13131472828700000000000000000000000000000000000000000000000000000000000000000000000000000000, 13129851001700000000000000000000000000000000000000000000000000000000000000000000000000000000, 13128126389300000000000000000000000000000000000000000000000000000000000000000000000000000000, 13126344828300000000000000000000000000000000000000000000000000000000000000000000000000000000, 13124536601400000000000000000000000000000000000000000000000000000000000000000000000000000000, 13122720665500000000000000000000000000000000000000000000000000000000000000000000000000000000, 13120908513500000000000000000000000000000000000000000000000000000000000000000000000000000000, 13119106895400000000000000000000000000000000000000000000000000000000000000000000000000000000, 13117319593900000000000000000000000000000000000000000000000000000000000000000000000000000000, 13115548549600000000000000000000000000000000000000000000000000000000000000000000000000000000, 13113794567400000000000000000000000000000000000000000000000000000000000000000000000000000000, 13112057758100000000000000000000000000000000000000000000000000000000000000000000000000000000, 13110337816000000000000000000000000000000000000000000000000000000000000000000000000000000000, 13108634192600000000000000000000000000000000000000000000000000000000000000000000000000000000, 13106946206500000000000000000000000000000000000000000000000000000000000000000000000000000000, 13105273112300000000000000000000000000000000000000000000000000000000000000000000000000000000, 13103614143700000000000000000000000000000000000000000000000000000000000000000000000000000000, 13101968539900000000000000000000000000000000000000000000000000000000000000000000000000000000, 13100335562100000000000000000000000000000000000000000000000000000000000000000000000000000000, 13098714501900000000000000000000000000000000000000000000000000000000000000000000000000000000, 13097104686800000000000000000000000000000000000000000000000000000000000000000000000000000000, 13095505481900000000000000000000000000000000000000000000000000000000000000000000000000000000, 13093916289900000000000000000000000000000000000000000000000000000000000000000000000000000000, 13092336550600000000000000000000000000000000000000000000000000000000000000000000000000000000, 13090765739100000000000000000000000000000000000000000000000000000000000000000000000000000000, 13089203364200000000000000000000000000000000000000000000000000000000000000000000000000000000, 13087648965800000000000000000000000000000000000000000000000000000000000000000000000000000000, 13086102113500000000000000000000000000000000000000000000000000000000000000000000000000000000, 13084562403900000000000000000000000000000000000000000000000000000000000000000000000000000000, 13083029459100000000000000000000000000000000000000000000000000000000000000000000000000000000, 13081502924600000000000000000000000000000000000000000000000000000000000000000000000000000000, 13079982467400000000000000000000000000000000000000000000000000000000000000000000000000000000, 13078467774600000000000000000000000000000000000000000000000000000000000000000000000000000000, 13076958552100000000000000000000000000000000000000000000000000000000000000000000000000000000, 13075454522400000000000000000000000000000000000000000000000000000000000000000000000000000000, 13073955424400000000000000000000000000000000000000000000000000000000000000000000000000000000]),
  (441941683367000, [13130065773100000000000000000000000000000000000000000000000000000000000000000000000000000000, 13127036746000000000000000000000000000000000000000000000000000000000000000000000000000000000, 13125774317000000000000000000000000000000000000000000000000000000000000000000000000000000000, 13124537146200000000000000000000000000000000000000000000000000000000000000000000000000000000, 13123100221600000000000000000000000000000000000000000000000000000000000000000000000000000000, 13121500202000000000000000000000000000000000000000000000000000000000000000000000000000000000, 13119797300300000000000000000000000000000000000000000000000000000000000000000000000000000000, 13118037374500000000000000000000000000000000000000000000000000000000000000000000000000000000, 13116250710200000000000000000000000000000000000000000000000000000000000000000000000000000000, 13114456260600000000000000000000000000000000000000000000000000000000000000000000000000000000, 13112665512400000000000000000000000000000000000000000000000000000000000000000000000000000000, 13110885207800000000000000000000000000000000000000000000000000000000000000000000000000000000, 13109119121700000000000000000000000000000000000000000000000000000000000000000000000000000000, 13107369188300000000000000000000000000000000000000000000000000000000000000000000000000000000, 13105636207500000000000000000000000000000000000000000000000000000000000000000000000000000000, 13103920287800000000000000000000000000000000000000000000000000000000000000000000000000000000, 13102221122700000000000000000000000000000000000000000000000000000000000000000000000000000000, 13100538165100000000000000000000000000000000000000000000000000000000000000000000000000000000, 13098870736200000000000000000000000000000000000000000000000000000000000000000000000000000000, 13097218094200000000000000000000000000000000000000000000000000000000000000000000000000000000, 13095579476800000000000000000000000000000000000000000000000000000000000000000000000000000000, 13093954128000000000000000000000000000000000000000000000000000000000000000000000000000000000, 13092341313400000000000000000000000000000000000000000000000000000000000000000000000000000000, 13090740329500000000000000000000000000000000000000000000000000000000000000000000000000000000, 13089150508100000000000000000000000000000000000000000000000000000000000000000000000000000000, 13087571218400000000000000000000000000000000000000000000000000000000000000000000000000000000, 13086001867100000000000000000000000000000000000000000000000000000000000000000000000000000000, 13084441897700000000000000000000000000000000000000000000000000000000000000000000000000000000, 13082890788500000000000000000000000000000000000000000000000000000000000000000000000000000000, 13081348051200000000000000000000000000000000000000000000000000000000000000000000000000000000, 13079813228600000000000000000000000000000000000000000000000000000000000000000000000000000000, 13078285892800000000000000000000000000000000000000000000000000000000000000000000000000000000, 13076765642500000000000000000000000000000000000000000000000000000000000000000000000000000000, 13075252102100000000000000000000000000000000000000000000000000000000000000000000000000000000, 13073744918600000000000000000000000000000000000000000000000000000000000000000000000000000000, 13072243761000000000000000000000000000000000000000000000000000000000000000000000000000000000, 13070748318000000000000000000000000000000000000000000000000000000000000000000000000000000000, 13069258296600000000000000000000000000000000000000000000000000000000000000000000000000000000, 13067773421100000000000000000000000000000000000000000000000000000000000000000000000000000000, 13066293431300000000000000000000000000000000000000000000000000000000000000000000000000000000]),
  (444045691383000, [13121407558400000000000000000000000000000000000000000000000000000000000000000000000000000000, 13118400932100000000000000000000000000000000000000000000000000000000000000000000000000000000, 13117159238500000000000000000000000000000000000000000000000000000000000000000000000000000000, 13115942347700000000000000000000000000000000000000000000000000000000000000000000000000000000, 13114525670000000000000000000000000000000000000000000000000000000000000000000000000000000000, 13112945949400000000000000000000000000000000000000000000000000000000000000000000000000000000, 13111263390300000000000000000000000000000000000000000000000000000000000000000000000000000000, 13109523827700000000000000000000000000000000000000000000000000000000000000000000000000000000, 13107757526300000000000000000000000000000000000000000000000000000000000000000000000000000000, 13105983421300000000000000000000000000000000000000000000000000000000000000000000000000000000, 13104212981700000000000000000000000000000000000000000000000000000000000000000000000000000000, 13102452933400000000000000000000000000000000000000000000000000000000000000000000000000000000, 13100707036600000000000000000000000000000000000000000000000000000000000000000000000000000000, 13098977213300000000000000000000000000000000000000000000000000000000000000000000000000000000, 13097264254700000000000000000000000000000000000000000000000000000000000000000000000000000000, 13095568263400000000000000000000000000000000000000000000000000000000000000000000000000000000, 13093888930000000000000000000000000000000000000000000000000000000000000000000000000000000000, 13092225706800000000000000000000000000000000000000000000000000000000000000000000000000000000, 13090577916300000000000000000000000000000000000000000000000000000000000000000000000000000000, 13088944819300000000000000000000000000000000000000000000000000000000000000000000000000000000, 13087325657200000000000000000000000000000000000000000000000000000000000000000000000000000000, 13085719678000000000000000000000000000000000000000000000000000000000000000000000000000000000, 13084126151500000000000000000000000000000000000000000000000000000000000000000000000000000000, 13082544378600000000000000000000000000000000000000000000000000000000000000000000000000000000, 13080973695200000000000000000000000000000000000000000000000000000000000000000000000000000000, 13079413474600000000000000000000000000000000000000000000000000000000000000000000000000000000, 13077863127100000000000000000000000000000000000000000000000000000000000000000000000000000000, 13076322099800000000000000000000000000000000000000000000000000000000000000000000000000000000, 13074789874000000000000000000000000000000000000000000000000000000000000000000000000000000000, 13073265964400000000000000000000000000000000000000000000000000000000000000000000000000000000, 13071749916300000000000000000000000000000000000000000000000000000000000000000000000000000000, 13070241304100000000000000000000000000000000000000000000000000000000000000000000000000000000, 13068739728900000000000000000000000000000000000000000000000000000000000000000000000000000000, 13067244816600000000000000000000000000000000000000000000000000000000000000000000000000000000, 13065756216300000000000000000000000000000000000000000000000000000000000000000000000000000000, 13064273598400000000000000000000000000000000000000000000000000000000000000000000000000000000, 13062796653000000000000000000000000000000000000000000000000000000000000000000000000000000000, 13061325088500000000000000000000000000000000000000000000000000000000000000000000000000000000, 13059858630200000000000000000000000000000000000000000000000000000000000000000000000000000000, 13058397019200000000000000000000000000000000000000000000000000000000000000000000000000000000]),
  (446149699399000, [13112572147000000000000000000000000000000000000000000000000000000000000000000000000000000000, 13109584268300000000000000000000000000000000000000000000000000000000000000000000000000000000, 13108360725000000000000000000000000000000000000000000000000000000000000000000000000000000000, 13107162275100000000000000000000000000000000000000000000000000000000000000000000000000000000, 13105764304200000000000000000000000000000000000000000000000000000000000000000000000000000000, 13104203493400000000000000000000000000000000000000000000000000000000000000000000000000000000, 13102539992900000000000000000000000000000000000000000000000000000000000000000000000000000000, 13100819592300000000000000000000000000000000000000000000000000000000000000000000000000000000, 13099072518200000000000000000000000000000000000000000000000000000000000000000000000000000000, 13097317672400000000000000000000000000000000000000000000000000000000000000000000000000000000, 13095566494300000000000000000000000000000000000000000000000000000000000000000000000000000000, 13093825683900000000000000000000000000000000000000000000000000000000000000000000000000000000, 13092098979900000000000000000000000000000000000000000000000000000000000000000000000000000000, 13090388287800000000000000000000000000000000000000000000000000000000000000000000000000000000, 13088694386600000000000000000000000000000000000000000000000000000000000000000000000000000000, 13087017371100000000000000000000000000000000000000000000000000000000000000000000000000000000, 13085356927900000000000000000000000000000000000000000000000000000000000000000000000000000000, 13083712508000000000000000000000000000000000000000000000000000000000000000000000000000000000, 13082083434700000000000000000000000000000000000000000000000000000000000000000000000000000000, 13080468971300000000000000000000000000000000000000000000000000000000000000000000000000000000, 13078868362500000000000000000000000000000000000000000000000000000000000000000000000000000000, 13077280860100000000000000000000000000000000000000000000000000000000000000000000000000000000, 13075705738200000000000000000000000000000000000000000000000000000000000000000000000000000000, 13074142301700000000000000000000000000000000000000000000000000000000000000000000000000000000, 13072589890800000000000000000000000000000000000000000000000000000000000000000000000000000000, 13071047882400000000000000000000000000000000000000000000000000000000000000000000000000000000, 13069515690700000000000000000000000000000000000000000000000000000000000000000000000000000000, 13067992765800000000000000000000000000000000000000000000000000000000000000000000000000000000, 13066478592300000000000000000000000000000000000000000000000000000000000000000000000000000000, 13064972687300000000000000000000000000000000000000000000000000000000000000000000000000000000, 13063474598900000000000000000000000000000000000000000000000000000000000000000000000000000000, 13061983903500000000000000000000000000000000000000000000000000000000000000000000000000000000, 13060500204300000000000000000000000000000000000000000000000000000000000000000000000000000000, 13059023128900000000000000000000000000000000000000000000000000000000000000000000000000000000, 13057552328000000000000000000000000000000000000000000000000000000000000000000000000000000000, 13056087473400000000000000000000000000000000000000000000000000000000000000000000000000000000, 13054628256700000000000000000000000000000000000000000000000000000000000000000000000000000000, 13053174387300000000000000000000000000000000000000000000000000000000000000000000000000000000, 13051725591700000000000000000000000000000000000000000000000000000000000000000000000000000000, 13050281611900000000000000000000000000000000000000000000000000000000000000000000000000000000]),
  (448253707415000, [13103569818500000000000000000000000000000000000000000000000000000000000000000000000000000000, 13100599364900000000000000000000000000000000000000000000000000000000000000000000000000000000, 13099392442600000000000000000000000000000000000000000000000000000000000000000000000000000000, 13098211000500000000000000000000000000000000000000000000000000000000000000000000000000000000, 13096830368200000000000000000000000000000000000000000000000000000000000000000000000000000000, 13095287172700000000000000000000000000000000000000000000000000000000000000000000000000000000, 13093641520500000000000000000000000000000000000000000000000000000000000000000000000000000000, 13091939149600000000000000000000000000000000000000000000000000000000000000000000000000000000, 13090210232600000000000000000000000000000000000000000000000000000000000000000000000000000000, 13088473620500000000000000000000000000000000000000000000000000000000000000000000000000000000, 13086740708400000000000000000000000000000000000000000000000000000000000000000000000000000000, 13085018160100000000000000000000000000000000000000000000000000000000000000000000000000000000, 13083309686300000000000000000000000000000000000000000000000000000000000000000000000000000000, 13081617171900000000000000000000000000000000000000000000000000000000000000000000000000000000, 13079941382000000000000000000000000000000000000000000000000000000000000000000000000000000000, 13078282403200000000000000000000000000000000000000000000000000000000000000000000000000000000, 13076639917700000000000000000000000000000000000000000000000000000000000000000000000000000000, 13075013375800000000000000000000000000000000000000000000000000000000000000000000000000000000, 13073402101800000000000000000000000000000000000000000000000000000000000000000000000000000000, 13071805361800000000000000000000000000000000000000000000000000000000000000000000000000000000, 13070222404200000000000000000000000000000000000000000000000000000000000000000000000000000000, 13068652484700000000000000000000000000000000000000000000000000000000000000000000000000000000, 13067094881800000000000000000000000000000000000000000000000000000000000000000000000000000000, 13065548904500000000000000000000000000000000000000000000000000000000000000000000000000000000, 13064013897000000000000000000000000000000000000000000000000000000000000000000000000000000000, 13062489240000000000000000000000000000000000000000000000000000000000000000000000000000000000, 13060974351300000000000000000000000000000000000000000000000000000000000000000000000000000000, 13059468683900000000000000000000000000000000000000000000000000000000000000000000000000000000, 13057971725500000000000000000000000000000000000000000000000000000000000000000000000000000000, 13056482995900000000000000000000000000000000000000000000000000000000000000000000000000000000, 13055002045300000000000000000000000000000000000000000000000000000000000000000000000000000000, 13053528452300000000000000000000000000000000000000000000000000000000000000000000000000000000, 13052061821700000000000000000000000000000000000000000000000000000000000000000000000000000000, 13050601783100000000000000000000000000000000000000000000000000000000000000000000000000000000, 13049147988600000000000000000000000000000000000000000000000000000000000000000000000000000000, 13047700111300000000000000000000000000000000000000000000000000000000000000000000000000000000, 13046257843900000000000000000000000000000000000000000000000000000000000000000000000000000000, 13044820896900000000000000000000000000000000000000000000000000000000000000000000000000000000, 13043388997800000000000000000000000000000000000000000000000000000000000000000000000000000000, 13041961889500000000000000000000000000000000000000000000000000000000000000000000000000000000]),
  (450357715431000, [13094410257400000000000000000000000000000000000000000000000000000000000000000000000000000000, 13091457893200000000000000000000000000000000000000000000000000000000000000000000000000000000, 13090267145300000000000000000000000000000000000000000000000000000000000000000000000000000000, 13089101661400000000000000000000000000000000000000000000000000000000000000000000000000000000, 13087737157300000000000000000000000000000000000000000000000000000000000000000000000000000000, 13086210383800000000000000000000000000000000000000000000000000000000000000000000000000000000, 13084581457700000000000000000000000000000000000000000000000000000000000000000000000000000000, 13082896066900000000000000000000000000000000000000000000000000000000000000000000000000000000, 13081184312000000000000000000000000000000000000000000000000000000000000000000000000000000000, 13079464973100000000000000000000000000000000000000000000000000000000000000000000000000000000, 13077749385600000000000000000000000000000000000000000000000000000000000000000000000000000000, 13076044167100000000000000000000000000000000000000000000000000000000000000000000000000000000, 13074352994700000000000000000000000000000000000000000000000000000000000000000000000000000000, 13072677730700000000000000000000000000000000000000000000000000000000000000000000000000000000, 13071019126500000000000000000000000000000000000000000000000000000000000000000000000000000000, 13069377260600000000000000000000000000000000000000000000000000000000000000000000000000000000, 13067751812700000000000000000000000000000000000000000000000000000000000000000000000000000000, 13066142232900000000000000000000000000000000000000000000000000000000000000000000000000000000, 13064547848000000000000000000000000000000000000000000000000000000000000000000000000000000000, 13062967927600000000000000000000000000000000000000000000000000000000000000000000000000000000, 13061401724100000000000000000000000000000000000000000000000000000000000000000000000000000000, 13059848498000000000000000000000000000000000000000000000000000000000000000000000000000000000, 13058307531900000000000000000000000000000000000000000000000000000000000000000000000000000000, 13056778139400000000000000000000000000000000000000000000000000000000000000000000000000000000, 13055259668600000000000000000000000000000000000000000000000000000000000000000000000000000000, 13053751504000000000000000000000000000000000000000000000000000000000000000000000000000000000, 13052253066600000000000000000000000000000000000000000000000000000000000000000000000000000000, 13050763812700000000000000000000000000000000000000000000000000000000000000000000000000000000, 13049283232500000000000000000000000000000000000000000000000000000000000000000000000000000000, 13047810848300000000000000000000000000000000000000000000000000000000000000000000000000000000, 13046346212500000000000000000000000000000000000000000000000000000000000000000000000000000000, 13044888905700000000000000000000000000000000000000000000000000000000000000000000000000000000, 13043438534400000000000000000000000000000000000000000000000000000000000000000000000000000000, 13041994729700000000000000000000000000000000000000000000000000000000000000000000000000000000, 13040557145000000000000000000000000000000000000000000000000000000000000000000000000000000000, 13039125454700000000000000000000000000000000000000000000000000000000000000000000000000000000, 13037699352500000000000000000000000000000000000000000000000000000000000000000000000000000000, 13036278550000000000000000000000000000000000000000000000000000000000000000000000000000000000, 13034862775500000000000000000000000000000000000000000000000000000000000000000000000000000000, 13033451772500000000000000000000000000000000000000000000000000000000000000000000000000000000]),
  (452461723447000, [13085102984400000000000000000000000000000000000000000000000000000000000000000000000000000000, 13082170899900000000000000000000000000000000000000000000000000000000000000000000000000000000, 13080996536500000000000000000000000000000000000000000000000000000000000000000000000000000000, 13079846266900000000000000000000000000000000000000000000000000000000000000000000000000000000, 13078496881900000000000000000000000000000000000000000000000000000000000000000000000000000000, 13076985504600000000000000000000000000000000000000000000000000000000000000000000000000000000, 13075372327800000000000000000000000000000000000000000000000000000000000000000000000000000000, 13073702988900000000000000000000000000000000000000000000000000000000000000000000000000000000, 13072007498500000000000000000000000000000000000000000000000000000000000000000000000000000000, 13070304548300000000000000000000000000000000000000000000000000000000000000000000000000000000, 13068605401900000000000000000000000000000000000000000000000000000000000000000000000000000000, 13066916624500000000000000000000000000000000000000000000000000000000000000000000000000000000, 13065241858200000000000000000000000000000000000000000000000000000000000000000000000000000000, 13063582943400000000000000000000000000000000000000000000000000000000000000000000000000000000, 13061940619400000000000000000000000000000000000000000000000000000000000000000000000000000000, 13060314959700000000000000000000000000000000000000000000000000000000000000000000000000000000, 13058705643100000000000000000000000000000000000000000000000000000000000000000000000000000000, 13057112122100000000000000000000000000000000000000000000000000000000000000000000000000000000, 13055533727300000000000000000000000000000000000000000000000000000000000000000000000000000000, 13053969732800000000000000000000000000000000000000000000000000000000000000000000000000000000, 13052419396300000000000000000000000000000000000000000000000000000000000000000000000000000000, 13050881982900000000000000000000000000000000000000000000000000000000000000000000000000000000, 13049356780400000000000000000000000000000000000000000000000000000000000000000000000000000000, 13047843106300000000000000000000000000000000000000000000000000000000000000000000000000000000, 13046340313100000000000000000000000000000000000000000000000000000000000000000000000000000000, 13044847788800000000000000000000000000000000000000000000000000000000000000000000000000000000, 13043364957600000000000000000000000000000000000000000000000000000000000000000000000000000000, 13041891278800000000000000000000000000000000000000000000000000000000000000000000000000000000, 13040426245300000000000000000000000000000000000000000000000000000000000000000000000000000000, 13038969381400000000000000000000000000000000000000000000000000000000000000000000000000000000, 13037520241800000000000000000000000000000000000000000000000000000000000000000000000000000000, 13036078408600000000000000000000000000000000000000000000000000000000000000000000000000000000, 13034643490100000000000000000000000000000000000000000000000000000000000000000000000000000000, 13033215118600000000000000000000000000000000000000000000000000000000000000000000000000000000, 13031792949000000000000000000000000000000000000000000000000000000000000000000000000000000000, 13030376656600000000000000000000000000000000000000000000000000000000000000000000000000000000, 13028965936100000000000000000000000000000000000000000000000000000000000000000000000000000000, 13027560500000000000000000000000000000000000000000000000000000000000000000000000000000000000, 13026160077400000000000000000000000000000000000000000000000000000000000000000000000000000000, 13024764412500000000000000000000000000000000000000000000000000000000000000000000000000000000]),
  (454565731463000, [13075658906900000000000000000000000000000000000000000000000000000000000000000000000000000000, 13072749132100000000000000000000000000000000000000000000000000000000000000000000000000000000, 13071591200700000000000000000000000000000000000000000000000000000000000000000000000000000000, 13070455580100000000000000000000000000000000000000000000000000000000000000000000000000000000, 13069120587400000000000000000000000000000000000000000000000000000000000000000000000000000000, 13067623856300000000000000000000000000000000000000000000000000000000000000000000000000000000, 13066025680300000000000000000000000000000000000000000000000000000000000000000000000000000000, 13064371638800000000000000000000000000000000000000000000000000000000000000000000000000000000, 13062691641200000000000000000000000000000000000000000000000000000000000000000000000000000000, 13061004283900000000000000000000000000000000000000000000000000000000000000000000000000000000, 13059320757400000000000000000000000000000000000000000000000000000000000000000000000000000000, 13057647576900000000000000000000000000000000000000000000000000000000000000000000000000000000, 13055988353800000000000000000000000000000000000000000000000000000000000000000000000000000000, 13054344911800000000000000000000000000000000000000000000000000000000000000000000000000000000, 13052717983100000000000000000000000000000000000000000000000000000000000000000000000000000000, 13051107640400000000000000000000000000000000000000000000000000000000000000000000000000000000, 13049513565200000000000000000000000000000000000000000000000000000000000000000000000000000000, 13047935214800000000000000000000000000000000000000000000000000000000000000000000000000000000, 13046371925600000000000000000000000000000000000000000000000000000000000000000000000000000000, 13044822977700000000000000000000000000000000000000000000000000000000000000000000000000000000, 13043287634600000000000000000000000000000000000000000000000000000000000000000000000000000000, 13041765166900000000000000000000000000000000000000000000000000000000000000000000000000000000, 13040254867300000000000000000000000000000000000000000000000000000000000000000000000000000000, 13038756058100000000000000000000000000000000000000000000000000000000000000000000000000000000, 13037268095400000000000000000000000000000000000000000000000000000000000000000000000000000000, 13035790371000000000000000000000000000000000000000000000000000000000000000000000000000000000, 13034322312200000000000000000000000000000000000000000000000000000000000000000000000000000000, 13032863380900000000000000000000000000000000000000000000000000000000000000000000000000000000, 13031413072300000000000000000000000000000000000000000000000000000000000000000000000000000000, 13029970913200000000000000000000000000000000000000000000000000000000000000000000000000000000, 13028536459700000000000000000000000000000000000000000000000000000000000000000000000000000000, 13027109295800000000000000000000000000000000000000000000000000000000000000000000000000000000, 13025689031100000000000000000000000000000000000000000000000000000000000000000000000000000000, 13024275299300000000000000000000000000000000000000000000000000000000000000000000000000000000, 13022867756200000000000000000000000000000000000000000000000000000000000000000000000000000000, 13021466078300000000000000000000000000000000000000000000000000000000000000000000000000000000, 13020069961200000000000000000000000000000000000000000000000000000000000000000000000000000000, 13018679118000000000000000000000000000000000000000000000000000000000000000000000000000000000, 13017293278600000000000000000000000000000000000000000000000000000000000000000000000000000000, 13015912187900000000000000000000000000000000000000000000000000000000000000000000000000000000]),
  (456669739479000, [13066091682500000000000000000000000000000000000000000000000000000000000000000000000000000000, 13063202914600000000000000000000000000000000000000000000000000000000000000000000000000000000, 13062060605400000000000000000000000000000000000000000000000000000000000000000000000000000000, 13060939185800000000000000000000000000000000000000000000000000000000000000000000000000000000, 13059618233400000000000000000000000000000000000000000000000000000000000000000000000000000000, 13058135771000000000000000000000000000000000000000000000000000000000000000000000000000000000, 13056552142100000000000000000000000000000000000000000000000000000000000000000000000000000000, 13054912854400000000000000000000000000000000000000000000000000000000000000000000000000000000, 13053247720800000000000000000000000000000000000000000000000000000000000000000000000000000000, 13051575255300000000000000000000000000000000000000000000000000000000000000000000000000000000, 13049906590100000000000000000000000000000000000000000000000000000000000000000000000000000000, 13048248205100000000000000000000000000000000000000000000000000000000000000000000000000000000, 13046603693300000000000000000000000000000000000000000000000000000000000000000000000000000000, 13044974872100000000000000000000000000000000000000000000000000000000000000000000000000000000, 13043362474700000000000000000000000000000000000000000000000000000000000000000000000000000000, 13041766578800000000000000000000000000000000000000000000000000000000000000000000000000000000, 13040186873400000000000000000000000000000000000000000000000000000000000000000000000000000000, 13038622823400000000000000000000000000000000000000000000000000000000000000000000000000000000, 13037073773200000000000000000000000000000000000000000000000000000000000000000000000000000000, 13035539010200000000000000000000000000000000000000000000000000000000000000000000000000000000, 13034017804500000000000000000000000000000000000000000000000000000000000000000000000000000000, 13032509432900000000000000000000000000000000000000000000000000000000000000000000000000000000, 13031013192900000000000000000000000000000000000000000000000000000000000000000000000000000000, 13029528411400000000000000000000000000000000000000000000000000000000000000000000000000000000, 13028054448600000000000000000000000000000000000000000000000000000000000000000000000000000000, 13026590699400000000000000000000000000000000000000000000000000000000000000000000000000000000, 13025136594100000000000000000000000000000000000000000000000000000000000000000000000000000000, 13023691597200000000000000000000000000000000000000000000000000000000000000000000000000000000, 13022255206100000000000000000000000000000000000000000000000000000000000000000000000000000000, 13020826949400000000000000000000000000000000000000000000000000000000000000000000000000000000, 13019406384900000000000000000000000000000000000000000000000000000000000000000000000000000000, 13017993098000000000000000000000000000000000000000000000000000000000000000000000000000000000, 13016586699800000000000000000000000000000000000000000000000000000000000000000000000000000000, 13015186824900000000000000000000000000000000000000000000000000000000000000000000000000000000, 13013793130300000000000000000000000000000000000000000000000000000000000000000000000000000000, 13012405293200000000000000000000000000000000000000000000000000000000000000000000000000000000, 13011023010000000000000000000000000000000000000000000000000000000000000000000000000000000000, 13009645994700000000000000000000000000000000000000000000000000000000000000000000000000000000, 13008273977700000000000000000000000000000000000000000000000000000000000000000000000000000000, 13006906704400000000000000000000000000000000000000000000000000000000000000000000000000000000]),
  (458773747495000, [13056414185700000000000000000000000000000000000000000000000000000000000000000000000000000000, 13053541286700000000000000000000000000000000000000000000000000000000000000000000000000000000, 13052413201800000000000000000000000000000000000000000000000000000000000000000000000000000000, 13051305786800000000000000000000000000000000000000000000000000000000000000000000000000000000, 13049998959100000000000000000000000000000000000000000000000000000000000000000000000000000000, 13048530782600000000000000000000000000000000000000000000000000000000000000000000000000000000, 13046961542100000000000000000000000000000000000000000000000000000000000000000000000000000000, 13045336665500000000000000000000000000000000000000000000000000000000000000000000000000000000, 13043685897400000000000000000000000000000000000000000000000000000000000000000000000000000000, 13042027705500000000000000000000000000000000000000000000000000000000000000000000000000000000, 13040373197000000000000000000000000000000000000000000000000000000000000000000000000000000000, 13038728842900000000000000000000000000000000000000000000000000000000000000000000000000000000, 13037098238400000000000000000000000000000000000000000000000000000000000000000000000000000000, 13035483209400000000000000000000000000000000000000000000000000000000000000000000000000000000, 13033884500700000000000000000000000000000000000000000000000000000000000000000000000000000000, 13032302202600000000000000000000000000000000000000000000000000000000000000000000000000000000, 13030736016100000000000000000000000000000000000000000000000000000000000000000000000000000000, 13029185417400000000000000000000000000000000000000000000000000000000000000000000000000000000, 13027649760900000000000000000000000000000000000000000000000000000000000000000000000000000000, 13026128342400000000000000000000000000000000000000000000000000000000000000000000000000000000, 13024620439500000000000000000000000000000000000000000000000000000000000000000000000000000000, 13023125335100000000000000000000000000000000000000000000000000000000000000000000000000000000, 13021642332000000000000000000000000000000000000000000000000000000000000000000000000000000000, 13020170761500000000000000000000000000000000000000000000000000000000000000000000000000000000, 13018709987400000000000000000000000000000000000000000000000000000000000000000000000000000000, 13017259408000000000000000000000000000000000000000000000000000000000000000000000000000000000, 13015818456200000000000000000000000000000000000000000000000000000000000000000000000000000000, 13014386598600000000000000000000000000000000000000000000000000000000000000000000000000000000, 13012963334800000000000000000000000000000000000000000000000000000000000000000000000000000000, 13011548194900000000000000000000000000000000000000000000000000000000000000000000000000000000, 13010140738300000000000000000000000000000000000000000000000000000000000000000000000000000000, 13008740551800000000000000000000000000000000000000000000000000000000000000000000000000000000, 13007347247500000000000000000000000000000000000000000000000000000000000000000000000000000000, 13005960461100000000000000000000000000000000000000000000000000000000000000000000000000000000, 13004579850300000000000000000000000000000000000000000000000000000000000000000000000000000000, 13003205093300000000000000000000000000000000000000000000000000000000000000000000000000000000, 13001835887300000000000000000000000000000000000000000000000000000000000000000000000000000000, 13000471946700000000000000000000000000000000000000000000000000000000000000000000000000000000, 12999113002600000000000000000000000000000000000000000000000000000000000000000000000000000000, 12997758800900000000000000000000000000000000000000000000000000000000000000000000000000000000]),
  (460877755511000, [13046632682600000000000000000000000000000000000000000000000000000000000000000000000000000000, 13043771540300000000000000000000000000000000000000000000000000000000000000000000000000000000, 13042656861400000000000000000000000000000000000000000000000000000000000000000000000000000000, 13041563717900000000000000000000000000000000000000000000000000000000000000000000000000000000, 13040271482100000000000000000000000000000000000000000000000000000000000000000000000000000000, 13038817894500000000000000000000000000000000000000000000000000000000000000000000000000000000, 13037263078700000000000000000000000000000000000000000000000000000000000000000000000000000000, 13035652395400000000000000000000000000000000000000000000000000000000000000000000000000000000, 13034015572100000000000000000000000000000000000000000000000000000000000000000000000000000000, 13032371084800000000000000000000000000000000000000000000000000000000000000000000000000000000, 13030730061600000000000000000000000000000000000000000000000000000000000000000000000000000000, 13029098999600000000000000000000000000000000000000000000000000000000000000000000000000000000, 13027481521000000000000000000000000000000000000000000000000000000000000000000000000000000000, 13025879477500000000000000000000000000000000000000000000000000000000000000000000000000000000, 13024293637200000000000000000000000000000000000000000000000000000000000000000000000000000000, 13022724110700000000000000000000000000000000000000000000000000000000000000000000000000000000, 13021170616000000000000000000000000000000000000000000000000000000000000000000000000000000000, 13019632643800000000000000000000000000000000000000000000000000000000000000000000000000000000, 13018109560000000000000000000000000000000000000000000000000000000000000000000000000000000000, 13016600670300000000000000000000000000000000000000000000000000000000000000000000000000000000, 13015105259900000000000000000000000000000000000000000000000000000000000000000000000000000000, 13013622618100000000000000000000000000000000000000000000000000000000000000000000000000000000, 13012152052900000000000000000000000000000000000000000000000000000000000000000000000000000000, 13010692899800000000000000000000000000000000000000000000000000000000000000000000000000000000, 13009244526200000000000000000000000000000000000000000000000000000000000000000000000000000000, 13007806333100000000000000000000000000000000000000000000000000000000000000000000000000000000, 13006377755900000000000000000000000000000000000000000000000000000000000000000000000000000000, 13004958263500000000000000000000000000000000000000000000000000000000000000000000000000000000, 13003547356800000000000000000000000000000000000000000000000000000000000000000000000000000000, 13002144567700000000000000000000000000000000000000000000000000000000000000000000000000000000, 13000749457000000000000000000000000000000000000000000000000000000000000000000000000000000000, 12999361612400000000000000000000000000000000000000000000000000000000000000000000000000000000, 12997980647000000000000000000000000000000000000000000000000000000000000000000000000000000000, 12996606197600000000000000000000000000000000000000000000000000000000000000000000000000000000, 12995237922600000000000000000000000000000000000000000000000000000000000000000000000000000000, 12993875501000000000000000000000000000000000000000000000000000000000000000000000000000000000, 12992518630500000000000000000000000000000000000000000000000000000000000000000000000000000000, 12991167026200000000000000000000000000000000000000000000000000000000000000000000000000000000, 12989820419600000000000000000000000000000000000000000000000000000000000000000000000000000000, 12988478557300000000000000000000000000000000000000000000000000000000000000000000000000000000]),
  (462981763527000, [13036749102600000000000000000000000000000000000000000000000000000000000000000000000000000000, 13033900556300000000000000000000000000000000000000000000000000000000000000000000000000000000, 13032799750800000000000000000000000000000000000000000000000000000000000000000000000000000000, 13031721542400000000000000000000000000000000000000000000000000000000000000000000000000000000, 13030444489300000000000000000000000000000000000000000000000000000000000000000000000000000000, 13029005824900000000000000000000000000000000000000000000000000000000000000000000000000000000, 13027465469300000000000000000000000000000000000000000000000000000000000000000000000000000000, 13025868752100000000000000000000000000000000000000000000000000000000000000000000000000000000, 13024245444900000000000000000000000000000000000000000000000000000000000000000000000000000000, 13022614090600000000000000000000000000000000000000000000000000000000000000000000000000000000, 13020985885300000000000000000000000000000000000000000000000000000000000000000000000000000000, 13019367386500000000000000000000000000000000000000000000000000000000000000000000000000000000, 13017762267700000000000000000000000000000000000000000000000000000000000000000000000000000000, 13016172422700000000000000000000000000000000000000000000000000000000000000000000000000000000, 13014598653200000000000000000000000000000000000000000000000000000000000000000000000000000000, 13013041097000000000000000000000000000000000000000000000000000000000000000000000000000000000, 13011499493400000000000000000000000000000000000000000000000000000000000000000000000000000000, 13009973349900000000000000000000000000000000000000000000000000000000000000000000000000000000, 13008462045500000000000000000000000000000000000000000000000000000000000000000000000000000000, 13006964896200000000000000000000000000000000000000000000000000000000000000000000000000000000, 13005481195300000000000000000000000000000000000000000000000000000000000000000000000000000000, 13004010238200000000000000000000000000000000000000000000000000000000000000000000000000000000, 13002551338200000000000000000000000000000000000000000000000000000000000000000000000000000000, 13001103834700000000000000000000000000000000000000000000000000000000000000000000000000000000, 12999667098100000000000000000000000000000000000000000000000000000000000000000000000000000000, 12998240532300000000000000000000000000000000000000000000000000000000000000000000000000000000, 12996823574700000000000000000000000000000000000000000000000000000000000000000000000000000000, 12995415696000000000000000000000000000000000000000000000000000000000000000000000000000000000, 12994016398800000000000000000000000000000000000000000000000000000000000000000000000000000000, 12992625216200000000000000000000000000000000000000000000000000000000000000000000000000000000, 12991241710200000000000000000000000000000000000000000000000000000000000000000000000000000000, 12989865469400000000000000000000000000000000000000000000000000000000000000000000000000000000, 12988496107900000000000000000000000000000000000000000000000000000000000000000000000000000000, 12987133263300000000000000000000000000000000000000000000000000000000000000000000000000000000, 12985776594800000000000000000000000000000000000000000000000000000000000000000000000000000000, 12984425781800000000000000000000000000000000000000000000000000000000000000000000000000000000, 12983080522800000000000000000000000000000000000000000000000000000000000000000000000000000000, 12981740533500000000000000000000000000000000000000000000000000000000000000000000000000000000, 12980405545700000000000000000000000000000000000000000000000000000000000000000000000000000000, 12979075306600000000000000000000000000000000000000000000000000000000000000000000000000000000]),
  (465085771543000, [13026770058800000000000000000000000000000000000000000000000000000000000000000000000000000000, 13023937081800000000000000000000000000000000000000000000000000000000000000000000000000000000, 13022851177200000000000000000000000000000000000000000000000000000000000000000000000000000000, 13021788434600000000000000000000000000000000000000000000000000000000000000000000000000000000, 13020526832500000000000000000000000000000000000000000000000000000000000000000000000000000000, 13019103115000000000000000000000000000000000000000000000000000000000000000000000000000000000, 13017577015900000000000000000000000000000000000000000000000000000000000000000000000000000000, 13015993873500000000000000000000000000000000000000000000000000000000000000000000000000000000, 13014383550100000000000000000000000000000000000000000000000000000000000000000000000000000000, 13012764698400000000000000000000000000000000000000000000000000000000000000000000000000000000, 13011148615900000000000000000000000000000000000000000000000000000000000000000000000000000000, 13009541945300000000000000000000000000000000000000000000000000000000000000000000000000000000, 13007948428000000000000000000000000000000000000000000000000000000000000000000000000000000000, 13006370011200000000000000000000000000000000000000000000000000000000000000000000000000000000, 13004807537800000000000000000000000000000000000000000000000000000000000000000000000000000000, 13003261177000000000000000000000000000000000000000000000000000000000000000000000000000000000, 13001730692300000000000000000000000000000000000000000000000000000000000000000000000000000000, 13000215609300000000000000000000000000000000000000000000000000000000000000000000000000000000, 12998715320800000000000000000000000000000000000000000000000000000000000000000000000000000000, 12997229153400000000000000000000000000000000000000000000000000000000000000000000000000000000, 12995756408200000000000000000000000000000000000000000000000000000000000000000000000000000000, 12994296387000000000000000000000000000000000000000000000000000000000000000000000000000000000, 12992848407700000000000000000000000000000000000000000000000000000000000000000000000000000000, 12991411813200000000000000000000000000000000000000000000000000000000000000000000000000000000, 12989985977100000000000000000000000000000000000000000000000000000000000000000000000000000000, 12988570305600000000000000000000000000000000000000000000000000000000000000000000000000000000, 12987164237800000000000000000000000000000000000000000000000000000000000000000000000000000000, 12985767246200000000000000000000000000000000000000000000000000000000000000000000000000000000, 12984378834700000000000000000000000000000000000000000000000000000000000000000000000000000000, 12982998537600000000000000000000000000000000000000000000000000000000000000000000000000000000, 12981625917800000000000000000000000000000000000000000000000000000000000000000000000000000000, 12980260564900000000000000000000000000000000000000000000000000000000000000000000000000000000, 12978902093900000000000000000000000000000000000000000000000000000000000000000000000000000000, 12977550142900000000000000000000000000000000000000000000000000000000000000000000000000000000, 12976204371800000000000000000000000000000000000000000000000000000000000000000000000000000000, 12974864460800000000000000000000000000000000000000000000000000000000000000000000000000000000, 12973530108800000000000000000000000000000000000000000000000000000000000000000000000000000000, 12972201032000000000000000000000000000000000000000000000000000000000000000000000000000000000, 12970876962800000000000000000000000000000000000000000000000000000000000000000000000000000000, 12969557648700000000000000000000000000000000000000000000000000000000000000000000000000000000]),
  (467189779559000, [13016708934100000000000000000000000000000000000000000000000000000000000000000000000000000000, 13013892455200000000000000000000000000000000000000000000000000000000000000000000000000000000, 13012821636600000000000000000000000000000000000000000000000000000000000000000000000000000000, 13011774041200000000000000000000000000000000000000000000000000000000000000000000000000000000, 13010527386000000000000000000000000000000000000000000000000000000000000000000000000000000000, 13009118030400000000000000000000000000000000000000000000000000000000000000000000000000000000, 13007605551000000000000000000000000000000000000000000000000000000000000000000000000000000000, 13006035305700000000000000000000000000000000000000000000000000000000000000000000000000000000, 13004437256900000000000000000000000000000000000000000000000000000000000000000000000000000000, 13002830176000000000000000000000000000000000000000000000000000000000000000000000000000000000, 13001225470200000000000000000000000000000000000000000000000000000000000000000000000000000000, 12999629874100000000000000000000000000000000000000000000000000000000000000000000000000000000, 12998047202400000000000000000000000000000000000000000000000000000000000000000000000000000000, 12996479458900000000000000000000000000000000000000000000000000000000000000000000000000000000, 12994927529800000000000000000000000000000000000000000000000000000000000000000000000000000000, 12993391617200000000000000000000000000000000000000000000000000000000000000000000000000000000, 12991871509100000000000000000000000000000000000000000000000000000000000000000000000000000000, 12990366749400000000000000000000000000000000000000000000000000000000000000000000000000000000, 12988876744900000000000000000000000000000000000000000000000000000000000000000000000000000000, 12987400832100000000000000000000000000000000000000000000000000000000000000000000000000000000, 12985938319900000000000000000000000000000000000000000000000000000000000000000000000000000000, 12984488515700000000000000000000000000000000000000000000000000000000000000000000000000000000, 12983050741900000000000000000000000000000000000000000000000000000000000000000000000000000000, 12981624344800000000000000000000000000000000000000000000000000000000000000000000000000000000, 12980208700500000000000000000000000000000000000000000000000000000000000000000000000000000000, 12978803217200000000000000000000000000000000000000000000000000000000000000000000000000000000, 12977407336100000000000000000000000000000000000000000000000000000000000000000000000000000000, 12976020530700000000000000000000000000000000000000000000000000000000000000000000000000000000, 12974642306300000000000000000000000000000000000000000000000000000000000000000000000000000000, 12973272198100000000000000000000000000000000000000000000000000000000000000000000000000000000, 12971909770100000000000000000000000000000000000000000000000000000000000000000000000000000000, 12970554612600000000000000000000000000000000000000000000000000000000000000000000000000000000, 12969206341300000000000000000000000000000000000000000000000000000000000000000000000000000000, 12967864595000000000000000000000000000000000000000000000000000000000000000000000000000000000, 12966529034400000000000000000000000000000000000000000000000000000000000000000000000000000000, 12965199340100000000000000000000000000000000000000000000000000000000000000000000000000000000, 12963875211400000000000000000000000000000000000000000000000000000000000000000000000000000000, 12962556365200000000000000000000000000000000000000000000000000000000000000000000000000000000, 12961242534300000000000000000000000000000000000000000000000000000000000000000000000000000000, 12959933466600000000000000000000000000000000000000000000000000000000000000000000000000000000]),
  (469293787575000, [13006580050500000000000000000000000000000000000000000000000000000000000000000000000000000000, 13003778902600000000000000000000000000000000000000000000000000000000000000000000000000000000, 13002721768300000000000000000000000000000000000000000000000000000000000000000000000000000000, 13001687761400000000000000000000000000000000000000000000000000000000000000000000000000000000, 13000454574500000000000000000000000000000000000000000000000000000000000000000000000000000000, 12999058273900000000000000000000000000000000000000000000000000000000000000000000000000000000, 12997558276600000000000000000000000000000000000000000000000000000000000000000000000000000000, 12995999924000000000000000000000000000000000000000000000000000000000000000000000000000000000, 12994413239400000000000000000000000000000000000000000000000000000000000000000000000000000000, 12992817082400000000000000000000000000000000000000000000000000000000000000000000000000000000, 12991222948900000000000000000000000000000000000000000000000000000000000000000000000000000000, 12989637651700000000000000000000000000000000000000000000000000000000000000000000000000000000, 12988065070400000000000000000000000000000000000000000000000000000000000000000000000000000000, 12986507260100000000000000000000000000000000000000000000000000000000000000000000000000000000, 12984965147100000000000000000000000000000000000000000000000000000000000000000000000000000000, 12983438963600000000000000000000000000000000000000000000000000000000000000000000000000000000, 12981928520700000000000000000000000000000000000000000000000000000000000000000000000000000000, 12980433379400000000000000000000000000000000000000000000000000000000000000000000000000000000, 12978952959100000000000000000000000000000000000000000000000000000000000000000000000000000000, 12977486605700000000000000000000000000000000000000000000000000000000000000000000000000000000, 12976033635100000000000000000000000000000000000000000000000000000000000000000000000000000000, 12974593360100000000000000000000000000000000000000000000000000000000000000000000000000000000, 12973165106700000000000000000000000000000000000000000000000000000000000000000000000000000000, 12971748224600000000000000000000000000000000000000000000000000000000000000000000000000000000, 12970342092000000000000000000000000000000000000000000000000000000000000000000000000000000000, 12968946119000000000000000000000000000000000000000000000000000000000000000000000000000000000, 12967559748300000000000000000000000000000000000000000000000000000000000000000000000000000000, 12966182454800000000000000000000000000000000000000000000000000000000000000000000000000000000, 12964813744800000000000000000000000000000000000000000000000000000000000000000000000000000000, 12963453154400000000000000000000000000000000000000000000000000000000000000000000000000000000, 12962100248400000000000000000000000000000000000000000000000000000000000000000000000000000000, 12960754618000000000000000000000000000000000000000000000000000000000000000000000000000000000, 12959415879500000000000000000000000000000000000000000000000000000000000000000000000000000000, 12958083672500000000000000000000000000000000000000000000000000000000000000000000000000000000, 12956757658000000000000000000000000000000000000000000000000000000000000000000000000000000000, 12955437517300000000000000000000000000000000000000000000000000000000000000000000000000000000, 12954122950400000000000000000000000000000000000000000000000000000000000000000000000000000000, 12952813674500000000000000000000000000000000000000000000000000000000000000000000000000000000, 12951509422800000000000000000000000000000000000000000000000000000000000000000000000000000000, 12950209943800000000000000000000000000000000000000000000000000000000000000000000000000000000]),
  (471397795591000, [12996394821600000000000000000000000000000000000000000000000000000000000000000000000000000000, 12993606832000000000000000000000000000000000000000000000000000000000000000000000000000000000, 12992560719400000000000000000000000000000000000000000000000000000000000000000000000000000000, 12991537735000000000000000000000000000000000000000000000000000000000000000000000000000000000, 12990315752400000000000000000000000000000000000000000000000000000000000000000000000000000000, 12988930617100000000000000000000000000000000000000000000000000000000000000000000000000000000, 12987441557900000000000000000000000000000000000000000000000000000000000000000000000000000000, 12985893826800000000000000000000000000000000000000000000000000000000000000000000000000000000, 12984317431400000000000000000000000000000000000000000000000000000000000000000000000000000000, 12982731257600000000000000000000000000000000000000000000000000000000000000000000000000000000, 12981146845700000000000000000000000000000000000000000000000000000000000000000000000000000000, 12979571056900000000000000000000000000000000000000000000000000000000000000000000000000000000, 12978007815700000000000000000000000000000000000000000000000000000000000000000000000000000000, 12976459215900000000000000000000000000000000000000000000000000000000000000000000000000000000, 12974926215300000000000000000000000000000000000000000000000000000000000000000000000000000000, 12973409071100000000000000000000000000000000000000000000000000000000000000000000000000000000, 12971907613300000000000000000000000000000000000000000000000000000000000000000000000000000000, 12970421417600000000000000000000000000000000000000000000000000000000000000000000000000000000, 12968949914100000000000000000000000000000000000000000000000000000000000000000000000000000000, 12967492457100000000000000000000000000000000000000000000000000000000000000000000000000000000, 12966048368500000000000000000000000000000000000000000000000000000000000000000000000000000000, 12964616965600000000000000000000000000000000000000000000000000000000000000000000000000000000, 12963197578000000000000000000000000000000000000000000000000000000000000000000000000000000000, 12961789557800000000000000000000000000000000000000000000000000000000000000000000000000000000, 12960392285600000000000000000000000000000000000000000000000000000000000000000000000000000000, 12959005173000000000000000000000000000000000000000000000000000000000000000000000000000000000, 12957627664100000000000000000000000000000000000000000000000000000000000000000000000000000000, 12956259235000000000000000000000000000000000000000000000000000000000000000000000000000000000, 12954899392800000000000000000000000000000000000000000000000000000000000000000000000000000000, 12953547674800000000000000000000000000000000000000000000000000000000000000000000000000000000, 12952203646400000000000000000000000000000000000000000000000000000000000000000000000000000000, 12950866899700000000000000000000000000000000000000000000000000000000000000000000000000000000, 12949537051500000000000000000000000000000000000000000000000000000000000000000000000000000000, 12948213742000000000000000000000000000000000000000000000000000000000000000000000000000000000, 12946896633000000000000000000000000000000000000000000000000000000000000000000000000000000000, 12945585406200000000000000000000000000000000000000000000000000000000000000000000000000000000, 12944279762100000000000000000000000000000000000000000000000000000000000000000000000000000000, 12942979418500000000000000000000000000000000000000000000000000000000000000000000000000000000, 12941684109100000000000000000000000000000000000000000000000000000000000000000000000000000000, 12940393582600000000000000000000000000000000000000000000000000000000000000000000000000000000])]
noncomputable def ttSpec9 : List (Nat × List Nat) := [
  (473501803607000, [12986160298600000000000000000000000000000000000000000000000000000000000000000000000000000000, 12983382770400000000000000000000000000000000000000000000000000000000000000000000000000000000, 12982344807000000000000000000000000000000000000000000000000000000000000000000000000000000000, 12981330012700000000000000000000000000000000000000000000000000000000000000000000000000000000, 12980116694800000000000000000000000000000000000000000000000000000000000000000000000000000000, 12978740598700000000000000000000000000000000000000000000000000000000000000000000000000000000, 12977260754000000000000000000000000000000000000000000000000000000000000000000000000000000000, 12975722248300000000000000000000000000000000000000000000000000000000000000000000000000000000, 12974154988500000000000000000000000000000000000000000000000000000000000000000000000000000000, 12972577814400000000000000000000000000000000000000000000000000000000000000000000000000000000, 12971002256700000000000000000000000000000000000000000000000000000000000000000000000000000000, 12969435187100000000000000000000000000000000000000000000000000000000000000000000000000000000, 12967880549600000000000000000000000000000000000000000000000000000000000000000000000000000000, 12966340459600000000000000000000000000000000000000000000000000000000000000000000000000000000, 12964815894800000000000000000000000000000000000000000000000000000000000000000000000000000000, 12963307129800000000000000000000000000000000000000000000000000000000000000000000000000000000, 12961814008400000000000000000000000000000000000000000000000000000000000000000000000000000000, 12960336117500000000000000000000000000000000000000000000000000000000000000000000000000000000, 12958872895700000000000000000000000000000000000000000000000000000000000000000000000000000000, 12957423703900000000000000000000000000000000000000000000000000000000000000000000000000000000, 12955987868800000000000000000000000000000000000000000000000000000000000000000000000000000000, 12954564711700000000000000000000000000000000000000000000000000000000000000000000000000000000, 12953153565000000000000000000000000000000000000000000000000000000000000000000000000000000000, 12951753783200000000000000000000000000000000000000000000000000000000000000000000000000000000, 12950364748700000000000000000000000000000000000000000000000000000000000000000000000000000000, 12948985874700000000000000000000000000000000000000000000000000000000000000000000000000000000, 12947616606400000000000000000000000000000000000000000000000000000000000000000000000000000000, 12946256421000000000000000000000000000000000000000000000000000000000000000000000000000000000, 12944904826800000000000000000000000000000000000000000000000000000000000000000000000000000000, 12943561361700000000000000000000000000000000000000000000000000000000000000000000000000000000, 12942225592000000000000000000000000000000000000000000000000000000000000000000000000000000000, 12940897110500000000000000000000000000000000000000000000000000000000000000000000000000000000, 12939575534800000000000000000000000000000000000000000000000000000000000000000000000000000000, 12938260505600000000000000000000000000000000000000000000000000000000000000000000000000000000, 12936951685300000000000000000000000000000000000000000000000000000000000000000000000000000000, 12935648756200000000000000000000000000000000000000000000000000000000000000000000000000000000, 12934351419400000000000000000000000000000000000000000000000000000000000000000000000000000000, 12933059393100000000000000000000000000000000000000000000000000000000000000000000000000000000, 12931772411600000000000000000000000000000000000000000000000000000000000000000000000000000000, 12930490224000000000000000000000000000000000000000000000000000000000000000000000000000000000]),
  (475605811623000, [12975877270300000000000000000000000000000000000000000000000000000000000000000000000000000000, 12973108820000000000000000000000000000000000000000000000000000000000000000000000000000000000, 12972077130300000000000000000000000000000000000000000000000000000000000000000000000000000000, 12971068272700000000000000000000000000000000000000000000000000000000000000000000000000000000, 12969861407200000000000000000000000000000000000000000000000000000000000000000000000000000000, 12968492405700000000000000000000000000000000000000000000000000000000000000000000000000000000, 12967020149300000000000000000000000000000000000000000000000000000000000000000000000000000000, 12965489525000000000000000000000000000000000000000000000000000000000000000000000000000000000, 12963930277600000000000000000000000000000000000000000000000000000000000000000000000000000000, 12962361142100000000000000000000000000000000000000000000000000000000000000000000000000000000, 12960793592500000000000000000000000000000000000000000000000000000000000000000000000000000000, 12959234476500000000000000000000000000000000000000000000000000000000000000000000000000000000, 12957687732600000000000000000000000000000000000000000000000000000000000000000000000000000000, 12956155480000000000000000000000000000000000000000000000000000000000000000000000000000000000, 12954638704800000000000000000000000000000000000000000000000000000000000000000000000000000000, 12953137690100000000000000000000000000000000000000000000000000000000000000000000000000000000, 12951652288400000000000000000000000000000000000000000000000000000000000000000000000000000000, 12950182093300000000000000000000000000000000000000000000000000000000000000000000000000000000, 12948726549700000000000000000000000000000000000000000000000000000000000000000000000000000000, 12947285022800000000000000000000000000000000000000000000000000000000000000000000000000000000, 12945856843500000000000000000000000000000000000000000000000000000000000000000000000000000000, 12944441335800000000000000000000000000000000000000000000000000000000000000000000000000000000, 12943037834700000000000000000000000000000000000000000000000000000000000000000000000000000000, 12941645696600000000000000000000000000000000000000000000000000000000000000000000000000000000, 12940264305400000000000000000000000000000000000000000000000000000000000000000000000000000000, 12938893075700000000000000000000000000000000000000000000000000000000000000000000000000000000, 12937531454100000000000000000000000000000000000000000000000000000000000000000000000000000000, 12936178918800000000000000000000000000000000000000000000000000000000000000000000000000000000, 12934834978800000000000000000000000000000000000000000000000000000000000000000000000000000000, 12933499173200000000000000000000000000000000000000000000000000000000000000000000000000000000, 12932171068900000000000000000000000000000000000000000000000000000000000000000000000000000000, 12930850259500000000000000000000000000000000000000000000000000000000000000000000000000000000, 12929536363200000000000000000000000000000000000000000000000000000000000000000000000000000000, 12928229021500000000000000000000000000000000000000000000000000000000000000000000000000000000, 12926927897400000000000000000000000000000000000000000000000000000000000000000000000000000000, 12925632673900000000000000000000000000000000000000000000000000000000000000000000000000000000, 12924343052400000000000000000000000000000000000000000000000000000000000000000000000000000000, 12923058751800000000000000000000000000000000000000000000000000000000000000000000000000000000, 12921779506900000000000000000000000000000000000000000000000000000000000000000000000000000000, 12920505067200000000000000000000000000000000000000000000000000000000000000000000000000000000]),
  (477709819639000, [12965541802200000000000000000000000000000000000000000000000000000000000000000000000000000000, 12962783903400000000000000000000000000000000000000000000000000000000000000000000000000000000, 12961758225400000000000000000000000000000000000000000000000000000000000000000000000000000000, 12960754161900000000000000000000000000000000000000000000000000000000000000000000000000000000, 12959552308000000000000000000000000000000000000000000000000000000000000000000000000000000000, 12958188972600000000000000000000000000000000000000000000000000000000000000000000000000000000, 12956723009200000000000000000000000000000000000000000000000000000000000000000000000000000000, 12955199129300000000000000000000000000000000000000000000000000000000000000000000000000000000, 12953646900600000000000000000000000000000000000000000000000000000000000000000000000000000000, 12952084927000000000000000000000000000000000000000000000000000000000000000000000000000000000, 12950524599100000000000000000000000000000000000000000000000000000000000000000000000000000000, 12948972717200000000000000000000000000000000000000000000000000000000000000000000000000000000, 12947433195800000000000000000000000000000000000000000000000000000000000000000000000000000000, 12945908144400000000000000000000000000000000000000000000000000000000000000000000000000000000, 12944398546400000000000000000000000000000000000000000000000000000000000000000000000000000000, 12942904686300000000000000000000000000000000000000000000000000000000000000000000000000000000, 12941426419500000000000000000000000000000000000000000000000000000000000000000000000000000000, 12939963343100000000000000000000000000000000000000000000000000000000000000000000000000000000, 12938514904900000000000000000000000000000000000000000000000000000000000000000000000000000000, 12937080473500000000000000000000000000000000000000000000000000000000000000000000000000000000, 12935659381900000000000000000000000000000000000000000000000000000000000000000000000000000000, 12934250956700000000000000000000000000000000000000000000000000000000000000000000000000000000, 12932854534500000000000000000000000000000000000000000000000000000000000000000000000000000000, 12931469473500000000000000000000000000000000000000000000000000000000000000000000000000000000, 12930095159000000000000000000000000000000000000000000000000000000000000000000000000000000000, 12928731007000000000000000000000000000000000000000000000000000000000000000000000000000000000, 12927376465100000000000000000000000000000000000000000000000000000000000000000000000000000000, 12926031012400000000000000000000000000000000000000000000000000000000000000000000000000000000, 12924694159300000000000000000000000000000000000000000000000000000000000000000000000000000000, 12923365445300000000000000000000000000000000000000000000000000000000000000000000000000000000, 12922044438500000000000000000000000000000000000000000000000000000000000000000000000000000000, 12920730733100000000000000000000000000000000000000000000000000000000000000000000000000000000, 12919423948200000000000000000000000000000000000000000000000000000000000000000000000000000000, 12918123725800000000000000000000000000000000000000000000000000000000000000000000000000000000, 12916829729700000000000000000000000000000000000000000000000000000000000000000000000000000000, 12915541643400000000000000000000000000000000000000000000000000000000000000000000000000000000, 12914259169100000000000000000000000000000000000000000000000000000000000000000000000000000000, 12912982026100000000000000000000000000000000000000000000000000000000000000000000000000000000, 12911709949700000000000000000000000000000000000000000000000000000000000000000000000000000000, 12910442690100000000000000000000000000000000000000000000000000000000000000000000000000000000]),
  (479813827655000, [12955150603600000000000000000000000000000000000000000000000000000000000000000000000000000000, 12952406018400000000000000000000000000000000000000000000000000000000000000000000000000000000, 12951387329100000000000000000000000000000000000000000000000000000000000000000000000000000000, 12950388052100000000000000000000000000000000000000000000000000000000000000000000000000000000, 12949190682600000000000000000000000000000000000000000000000000000000000000000000000000000000, 12947832249600000000000000000000000000000000000000000000000000000000000000000000000000000000, 12946371736800000000000000000000000000000000000000000000000000000000000000000000000000000000, 12944853761100000000000000000000000000000000000000000000000000000000000000000000000000000000, 12943307750700000000000000000000000000000000000000000000000000000000000000000000000000000000, 12941752190000000000000000000000000000000000000000000000000000000000000000000000000000000000, 12940198385500000000000000000000000000000000000000000000000000000000000000000000000000000000, 12938653082800000000000000000000000000000000000000000000000000000000000000000000000000000000, 12937120164000000000000000000000000000000000000000000000000000000000000000000000000000000000, 12935601720100000000000000000000000000000000000000000000000000000000000000000000000000000000, 12934098724900000000000000000000000000000000000000000000000000000000000000000000000000000000, 12932611458500000000000000000000000000000000000000000000000000000000000000000000000000000000, 12931139774800000000000000000000000000000000000000000000000000000000000000000000000000000000, 12929683271200000000000000000000000000000000000000000000000000000000000000000000000000000000, 12928241396500000000000000000000000000000000000000000000000000000000000000000000000000000000, 12926813520500000000000000000000000000000000000000000000000000000000000000000000000000000000, 12925398977900000000000000000000000000000000000000000000000000000000000000000000000000000000, 12923997096500000000000000000000000000000000000000000000000000000000000000000000000000000000, 12922607214700000000000000000000000000000000000000000000000000000000000000000000000000000000, 12921228691900000000000000000000000000000000000000000000000000000000000000000000000000000000, 12919860914800000000000000000000000000000000000000000000000000000000000000000000000000000000, 12918503300400000000000000000000000000000000000000000000000000000000000000000000000000000000, 12917155297500000000000000000000000000000000000000000000000000000000000000000000000000000000, 12915816386400000000000000000000000000000000000000000000000000000000000000000000000000000000, 12914486078300000000000000000000000000000000000000000000000000000000000000000000000000000000, 12913163913800000000000000000000000000000000000000000000000000000000000000000000000000000000, 12911849461800000000000000000000000000000000000000000000000000000000000000000000000000000000, 12910542317300000000000000000000000000000000000000000000000000000000000000000000000000000000, 12909242100200000000000000000000000000000000000000000000000000000000000000000000000000000000, 12907948453400000000000000000000000000000000000000000000000000000000000000000000000000000000, 12906661041200000000000000000000000000000000000000000000000000000000000000000000000000000000, 12905379548000000000000000000000000000000000000000000000000000000000000000000000000000000000, 12904103676400000000000000000000000000000000000000000000000000000000000000000000000000000000, 12902833146400000000000000000000000000000000000000000000000000000000000000000000000000000000, 12901567694000000000000000000000000000000000000000000000000000000000000000000000000000000000, 12900307069600000000000000000000000000000000000000000000000000000000000000000000000000000000]),
  (481917835671000, [12944703684000000000000000000000000000000000000000000000000000000000000000000000000000000000, 12941973974900000000000000000000000000000000000000000000000000000000000000000000000000000000, 12940963609500000000000000000000000000000000000000000000000000000000000000000000000000000000, 12939969877100000000000000000000000000000000000000000000000000000000000000000000000000000000, 12938777222400000000000000000000000000000000000000000000000000000000000000000000000000000000, 12937423536100000000000000000000000000000000000000000000000000000000000000000000000000000000, 12935968073800000000000000000000000000000000000000000000000000000000000000000000000000000000, 12934455469900000000000000000000000000000000000000000000000000000000000000000000000000000000, 12932915087800000000000000000000000000000000000000000000000000000000000000000000000000000000, 12931365336800000000000000000000000000000000000000000000000000000000000000000000000000000000, 12929817460100000000000000000000000000000000000000000000000000000000000000000000000000000000, 12928278157700000000000000000000000000000000000000000000000000000000000000000000000000000000, 12926751280100000000000000000000000000000000000000000000000000000000000000000000000000000000, 12925238897800000000000000000000000000000000000000000000000000000000000000000000000000000000, 12923741971800000000000000000000000000000000000000000000000000000000000000000000000000000000, 12922260774600000000000000000000000000000000000000000000000000000000000000000000000000000000, 12920795155900000000000000000000000000000000000000000000000000000000000000000000000000000000, 12919344710700000000000000000000000000000000000000000000000000000000000000000000000000000000, 12917908887500000000000000000000000000000000000000000000000000000000000000000000000000000000, 12916487056100000000000000000000000000000000000000000000000000000000000000000000000000000000, 12915078552000000000000000000000000000000000000000000000000000000000000000000000000000000000, 12913682703800000000000000000000000000000000000000000000000000000000000000000000000000000000, 12912298851100000000000000000000000000000000000000000000000000000000000000000000000000000000, 12910926354400000000000000000000000000000000000000000000000000000000000000000000000000000000, 12909564601600000000000000000000000000000000000000000000000000000000000000000000000000000000, 12908213010900000000000000000000000000000000000000000000000000000000000000000000000000000000, 12906871032300000000000000000000000000000000000000000000000000000000000000000000000000000000, 12905538147200000000000000000000000000000000000000000000000000000000000000000000000000000000, 12904213867700000000000000000000000000000000000000000000000000000000000000000000000000000000, 12902897735500000000000000000000000000000000000000000000000000000000000000000000000000000000, 12901589320400000000000000000000000000000000000000000000000000000000000000000000000000000000, 12900288218400000000000000000000000000000000000000000000000000000000000000000000000000000000, 12898994050100000000000000000000000000000000000000000000000000000000000000000000000000000000, 12897706459300000000000000000000000000000000000000000000000000000000000000000000000000000000, 12896425111100000000000000000000000000000000000000000000000000000000000000000000000000000000, 12895149690400000000000000000000000000000000000000000000000000000000000000000000000000000000, 12893879900700000000000000000000000000000000000000000000000000000000000000000000000000000000, 12892615462700000000000000000000000000000000000000000000000000000000000000000000000000000000, 12891356112700000000000000000000000000000000000000000000000000000000000000000000000000000000, 12890101602000000000000000000000000000000000000000000000000000000000000000000000000000000000]),
  (484021843687000, [12934202638300000000000000000000000000000000000000000000000000000000000000000000000000000000, 12931487935600000000000000000000000000000000000000000000000000000000000000000000000000000000, 12930486928700000000000000000000000000000000000000000000000000000000000000000000000000000000, 12929499755500000000000000000000000000000000000000000000000000000000000000000000000000000000, 12928312466100000000000000000000000000000000000000000000000000000000000000000000000000000000, 12926963773500000000000000000000000000000000000000000000000000000000000000000000000000000000, 12925513290400000000000000000000000000000000000000000000000000000000000000000000000000000000, 12924005776700000000000000000000000000000000000000000000000000000000000000000000000000000000, 12922470619700000000000000000000000000000000000000000000000000000000000000000000000000000000, 12920926212500000000000000000000000000000000000000000000000000000000000000000000000000000000, 12919383771300000000000000000000000000000000000000000000000000000000000000000000000000000000, 12917849968800000000000000000000000000000000000000000000000000000000000000000000000000000000, 12916328632700000000000000000000000000000000000000000000000000000000000000000000000000000000, 12914821816500000000000000000000000000000000000000000000000000000000000000000000000000000000, 12913330468600000000000000000000000000000000000000000000000000000000000000000000000000000000, 12911854853300000000000000000000000000000000000000000000000000000000000000000000000000000000, 12910394814800000000000000000000000000000000000000000000000000000000000000000000000000000000, 12908949945200000000000000000000000000000000000000000000000000000000000000000000000000000000, 12907519691100000000000000000000000000000000000000000000000000000000000000000000000000000000, 12906103421900000000000000000000000000000000000000000000000000000000000000000000000000000000, 12904700473300000000000000000000000000000000000000000000000000000000000000000000000000000000, 12903310174500000000000000000000000000000000000000000000000000000000000000000000000000000000, 12901931866000000000000000000000000000000000000000000000000000000000000000000000000000000000, 12900564909300000000000000000000000000000000000000000000000000000000000000000000000000000000, 12899208693700000000000000000000000000000000000000000000000000000000000000000000000000000000, 12897862638400000000000000000000000000000000000000000000000000000000000000000000000000000000, 12896526194500000000000000000000000000000000000000000000000000000000000000000000000000000000, 12895198844700000000000000000000000000000000000000000000000000000000000000000000000000000000, 12893880102200000000000000000000000000000000000000000000000000000000000000000000000000000000, 12892569509700000000000000000000000000000000000000000000000000000000000000000000000000000000, 12891266638100000000000000000000000000000000000000000000000000000000000000000000000000000000, 12889971084300000000000000000000000000000000000000000000000000000000000000000000000000000000, 12888682469800000000000000000000000000000000000000000000000000000000000000000000000000000000, 12887400439300000000000000000000000000000000000000000000000000000000000000000000000000000000, 12886124658700000000000000000000000000000000000000000000000000000000000000000000000000000000, 12884854813800000000000000000000000000000000000000000000000000000000000000000000000000000000, 12883590608600000000000000000000000000000000000000000000000000000000000000000000000000000000, 12882331764500000000000000000000000000000000000000000000000000000000000000000000000000000000, 12881078018700000000000000000000000000000000000000000000000000000000000000000000000000000000, 12879829122800000000000000000000000000000000000000000000000000000000000000000000000000000000]),
  (486125851703000, [12923649833200000000000000000000000000000000000000000000000000000000000000000000000000000000, 12920949341600000000000000000000000000000000000000000000000000000000000000000000000000000000, 12919958064500000000000000000000000000000000000000000000000000000000000000000000000000000000, 12918978262900000000000000000000000000000000000000000000000000000000000000000000000000000000, 12917797035800000000000000000000000000000000000000000000000000000000000000000000000000000000, 12916453728400000000000000000000000000000000000000000000000000000000000000000000000000000000, 12915008320400000000000000000000000000000000000000000000000000000000000000000000000000000000, 12913505773100000000000000000000000000000000000000000000000000000000000000000000000000000000, 12911975573900000000000000000000000000000000000000000000000000000000000000000000000000000000, 12910436157600000000000000000000000000000000000000000000000000000000000000000000000000000000, 12908898750400000000000000000000000000000000000000000000000000000000000000000000000000000000, 12907370020600000000000000000000000000000000000000000000000000000000000000000000000000000000, 12905853786100000000000000000000000000000000000000000000000000000000000000000000000000000000, 12904352089700000000000000000000000000000000000000000000000000000000000000000000000000000000, 12902865871000000000000000000000000000000000000000000000000000000000000000000000000000000000, 12901395387000000000000000000000000000000000000000000000000000000000000000000000000000000000, 12899940477200000000000000000000000000000000000000000000000000000000000000000000000000000000, 12898500730600000000000000000000000000000000000000000000000000000000000000000000000000000000, 12897075592000000000000000000000000000000000000000000000000000000000000000000000000000000000, 12895664430100000000000000000000000000000000000000000000000000000000000000000000000000000000, 12894266580600000000000000000000000000000000000000000000000000000000000000000000000000000000, 12892881373500000000000000000000000000000000000000000000000000000000000000000000000000000000, 12891508149800000000000000000000000000000000000000000000000000000000000000000000000000000000, 12890146272500000000000000000000000000000000000000000000000000000000000000000000000000000000, 12888795131700000000000000000000000000000000000000000000000000000000000000000000000000000000, 12887454148000000000000000000000000000000000000000000000000000000000000000000000000000000000, 12886122773900000000000000000000000000000000000000000000000000000000000000000000000000000000, 12884800493100000000000000000000000000000000000000000000000000000000000000000000000000000000, 12883486820100000000000000000000000000000000000000000000000000000000000000000000000000000000, 12882181298900000000000000000000000000000000000000000000000000000000000000000000000000000000, 12880883501100000000000000000000000000000000000000000000000000000000000000000000000000000000, 12879593025000000000000000000000000000000000000000000000000000000000000000000000000000000000, 12878309492900000000000000000000000000000000000000000000000000000000000000000000000000000000, 12877032550600000000000000000000000000000000000000000000000000000000000000000000000000000000, 12875761864600000000000000000000000000000000000000000000000000000000000000000000000000000000, 12874497121700000000000000000000000000000000000000000000000000000000000000000000000000000000, 12873238026700000000000000000000000000000000000000000000000000000000000000000000000000000000, 12871984301700000000000000000000000000000000000000000000000000000000000000000000000000000000, 12870735684400000000000000000000000000000000000000000000000000000000000000000000000000000000, 12869491927300000000000000000000000000000000000000000000000000000000000000000000000000000000]),
  (488229859719000, [12913049666300000000000000000000000000000000000000000000000000000000000000000000000000000000, 12910360679200000000000000000000000000000000000000000000000000000000000000000000000000000000, 12909378511500000000000000000000000000000000000000000000000000000000000000000000000000000000, 12908406370800000000000000000000000000000000000000000000000000000000000000000000000000000000, 12907231660100000000000000000000000000000000000000000000000000000000000000000000000000000000, 12905894051700000000000000000000000000000000000000000000000000000000000000000000000000000000, 12904453830500000000000000000000000000000000000000000000000000000000000000000000000000000000, 12902956187500000000000000000000000000000000000000000000000000000000000000000000000000000000, 12901430757000000000000000000000000000000000000000000000000000000000000000000000000000000000, 12899896056700000000000000000000000000000000000000000000000000000000000000000000000000000000, 12898363353200000000000000000000000000000000000000000000000000000000000000000000000000000000, 12896839330800000000000000000000000000000000000000000000000000000000000000000000000000000000, 12895327810700000000000000000000000000000000000000000000000000000000000000000000000000000000, 12893830833200000000000000000000000000000000000000000000000000000000000000000000000000000000, 12892349333700000000000000000000000000000000000000000000000000000000000000000000000000000000, 12890883565300000000000000000000000000000000000000000000000000000000000000000000000000000000, 12889433364200000000000000000000000000000000000000000000000000000000000000000000000000000000, 12887998317100000000000000000000000000000000000000000000000000000000000000000000000000000000, 12886577867800000000000000000000000000000000000000000000000000000000000000000000000000000000, 12885171384700000000000000000000000000000000000000000000000000000000000000000000000000000000, 12883778203600000000000000000000000000000000000000000000000000000000000000000000000000000000, 12882397655200000000000000000000000000000000000000000000000000000000000000000000000000000000, 12881029081800000000000000000000000000000000000000000000000000000000000000000000000000000000, 12879671847200000000000000000000000000000000000000000000000000000000000000000000000000000000, 12878325343000000000000000000000000000000000000000000000000000000000000000000000000000000000, 12876988991300000000000000000000000000000000000000000000000000000000000000000000000000000000, 12875662245700000000000000000000000000000000000000000000000000000000000000000000000000000000, 12874344591300000000000000000000000000000000000000000000000000000000000000000000000000000000, 12873035543900000000000000000000000000000000000000000000000000000000000000000000000000000000, 12871734648600000000000000000000000000000000000000000000000000000000000000000000000000000000, 12870441478500000000000000000000000000000000000000000000000000000000000000000000000000000000, 12869155632700000000000000000000000000000000000000000000000000000000000000000000000000000000, 12867876734800000000000000000000000000000000000000000000000000000000000000000000000000000000, 12866604431300000000000000000000000000000000000000000000000000000000000000000000000000000000, 12865338389900000000000000000000000000000000000000000000000000000000000000000000000000000000, 12864078298100000000000000000000000000000000000000000000000000000000000000000000000000000000, 12862823861600000000000000000000000000000000000000000000000000000000000000000000000000000000, 12861574803200000000000000000000000000000000000000000000000000000000000000000000000000000000, 12860330861400000000000000000000000000000000000000000000000000000000000000000000000000000000, 12859091789500000000000000000000000000000000000000000000000000000000000000000000000000000000]),
  (490333867735000, [12902407514100000000000000000000000000000000000000000000000000000000000000000000000000000000, 12899724808100000000000000000000000000000000000000000000000000000000000000000000000000000000, 12898750009600000000000000000000000000000000000000000000000000000000000000000000000000000000, 12897785176400000000000000000000000000000000000000000000000000000000000000000000000000000000, 12896617049200000000000000000000000000000000000000000000000000000000000000000000000000000000, 12895285244900000000000000000000000000000000000000000000000000000000000000000000000000000000, 12893850235100000000000000000000000000000000000000000000000000000000000000000000000000000000, 12892357421000000000000000000000000000000000000000000000000000000000000000000000000000000000, 12890836596100000000000000000000000000000000000000000000000000000000000000000000000000000000, 12889306380000000000000000000000000000000000000000000000000000000000000000000000000000000000, 12887778097600000000000000000000000000000000000000000000000000000000000000000000000000000000, 12886258463600000000000000000000000000000000000000000000000000000000000000000000000000000000, 12884751312900000000000000000000000000000000000000000000000000000000000000000000000000000000, 12883258691400000000000000000000000000000000000000000000000000000000000000000000000000000000, 12881781535600000000000000000000000000000000000000000000000000000000000000000000000000000000, 12880320098100000000000000000000000000000000000000000000000000000000000000000000000000000000, 12878874214200000000000000000000000000000000000000000000000000000000000000000000000000000000, 12877443470300000000000000000000000000000000000000000000000000000000000000000000000000000000, 12876027309900000000000000000000000000000000000000000000000000000000000000000000000000000000, 12874625101800000000000000000000000000000000000000000000000000000000000000000000000000000000, 12873236182600000000000000000000000000000000000000000000000000000000000000000000000000000000, 12871859884000000000000000000000000000000000000000000000000000000000000000000000000000000000, 12870495549500000000000000000000000000000000000000000000000000000000000000000000000000000000, 12869142544500000000000000000000000000000000000000000000000000000000000000000000000000000000, 12867800262000000000000000000000000000000000000000000000000000000000000000000000000000000000, 12866468125400000000000000000000000000000000000000000000000000000000000000000000000000000000, 12865145590000000000000000000000000000000000000000000000000000000000000000000000000000000000, 12863832142200000000000000000000000000000000000000000000000000000000000000000000000000000000, 12862527299200000000000000000000000000000000000000000000000000000000000000000000000000000000, 12861230607600000000000000000000000000000000000000000000000000000000000000000000000000000000, 12859941641600000000000000000000000000000000000000000000000000000000000000000000000000000000, 12858660001400000000000000000000000000000000000000000000000000000000000000000000000000000000, 12857385311800000000000000000000000000000000000000000000000000000000000000000000000000000000, 12856117220500000000000000000000000000000000000000000000000000000000000000000000000000000000, 12854855395900000000000000000000000000000000000000000000000000000000000000000000000000000000, 12853599526600000000000000000000000000000000000000000000000000000000000000000000000000000000, 12852349319100000000000000000000000000000000000000000000000000000000000000000000000000000000, 12851104497100000000000000000000000000000000000000000000000000000000000000000000000000000000, 12849864799800000000000000000000000000000000000000000000000000000000000000000000000000000000, 12848629981100000000000000000000000000000000000000000000000000000000000000000000000000000000]),
  (492437875752000, [12891726014500000000000000000000000000000000000000000000000000000000000000000000000000000000, 12889043793700000000000000000000000000000000000000000000000000000000000000000000000000000000, 12888073971700000000000000000000000000000000000000000000000000000000000000000000000000000000, 12887115577600000000000000000000000000000000000000000000000000000000000000000000000000000000, 12885953723600000000000000000000000000000000000000000000000000000000000000000000000000000000, 12884627586000000000000000000000000000000000000000000000000000000000000000000000000000000000, 12883197679000000000000000000000000000000000000000000000000000000000000000000000000000000000, 12881709560200000000000000000000000000000000000000000000000000000000000000000000000000000000, 12880193165100000000000000000000000000000000000000000000000000000000000000000000000000000000, 12878667213500000000000000000000000000000000000000000000000000000000000000000000000000000000, 12877143093700000000000000000000000000000000000000000000000000000000000000000000000000000000, 12875627557500000000000000000000000000000000000000000000000000000000000000000000000000000000, 12874124461200000000000000000000000000000000000000000000000000000000000000000000000000000000, 12872635861800000000000000000000000000000000000000000000000000000000000000000000000000000000, 12871162701700000000000000000000000000000000000000000000000000000000000000000000000000000000, 12869705236800000000000000000000000000000000000000000000000000000000000000000000000000000000, 12868263304000000000000000000000000000000000000000000000000000000000000000000000000000000000, 12866836491100000000000000000000000000000000000000000000000000000000000000000000000000000000, 12865424242700000000000000000000000000000000000000000000000000000000000000000000000000000000, 12864025929000000000000000000000000000000000000000000000000000000000000000000000000000000000, 12862640887900000000000000000000000000000000000000000000000000000000000000000000000000000000, 12861268452600000000000000000000000000000000000000000000000000000000000000000000000000000000, 12859907968300000000000000000000000000000000000000000000000000000000000000000000000000000000, 12858558801900000000000000000000000000000000000000000000000000000000000000000000000000000000, 12857220348100000000000000000000000000000000000000000000000000000000000000000000000000000000, 12855892032200000000000000000000000000000000000000000000000000000000000000000000000000000000, 12854573310700000000000000000000000000000000000000000000000000000000000000000000000000000000, 12853263672000000000000000000000000000000000000000000000000000000000000000000000000000000000, 12851962634500000000000000000000000000000000000000000000000000000000000000000000000000000000, 12850669746200000000000000000000000000000000000000000000000000000000000000000000000000000000, 12849384582600000000000000000000000000000000000000000000000000000000000000000000000000000000, 12848106745300000000000000000000000000000000000000000000000000000000000000000000000000000000, 12846835860300000000000000000000000000000000000000000000000000000000000000000000000000000000, 12845571576200000000000000000000000000000000000000000000000000000000000000000000000000000000, 12844313562600000000000000000000000000000000000000000000000000000000000000000000000000000000, 12843061509000000000000000000000000000000000000000000000000000000000000000000000000000000000, 12841815122800000000000000000000000000000000000000000000000000000000000000000000000000000000, 12840574128600000000000000000000000000000000000000000000000000000000000000000000000000000000, 12839338266300000000000000000000000000000000000000000000000000000000000000000000000000000000, 12838107290600000000000000000000000000000000000000000000000000000000000000000000000000000000]),
  (494541883768000, [12881003146400000000000000000000000000000000000000000000000000000000000000000000000000000000, 12878317953600000000000000000000000000000000000000000000000000000000000000000000000000000000, 12877351036200000000000000000000000000000000000000000000000000000000000000000000000000000000, 12876398021800000000000000000000000000000000000000000000000000000000000000000000000000000000, 12875241870700000000000000000000000000000000000000000000000000000000000000000000000000000000, 12873921056700000000000000000000000000000000000000000000000000000000000000000000000000000000, 12872496009100000000000000000000000000000000000000000000000000000000000000000000000000000000, 12871012374500000000000000000000000000000000000000000000000000000000000000000000000000000000, 12869500195600000000000000000000000000000000000000000000000000000000000000000000000000000000, 12867978276300000000000000000000000000000000000000000000000000000000000000000000000000000000, 12866458063200000000000000000000000000000000000000000000000000000000000000000000000000000000, 12864946346400000000000000000000000000000000000000000000000000000000000000000000000000000000, 12863447006000000000000000000000000000000000000000000000000000000000000000000000000000000000, 12861962114200000000000000000000000000000000000000000000000000000000000000000000000000000000, 12860492622600000000000000000000000000000000000000000000000000000000000000000000000000000000, 12859038793000000000000000000000000000000000000000000000000000000000000000000000000000000000, 12857600466500000000000000000000000000000000000000000000000000000000000000000000000000000000, 12856177233800000000000000000000000000000000000000000000000000000000000000000000000000000000, 12854768541900000000000000000000000000000000000000000000000000000000000000000000000000000000, 12853373763200000000000000000000000000000000000000000000000000000000000000000000000000000000, 12851992237600000000000000000000000000000000000000000000000000000000000000000000000000000000, 12850623300400000000000000000000000000000000000000000000000000000000000000000000000000000000, 12849266298600000000000000000000000000000000000000000000000000000000000000000000000000000000, 12847920601200000000000000000000000000000000000000000000000000000000000000000000000000000000, 12846585604800000000000000000000000000000000000000000000000000000000000000000000000000000000, 12845260736200000000000000000000000000000000000000000000000000000000000000000000000000000000, 12843945454000000000000000000000000000000000000000000000000000000000000000000000000000000000, 12842639248000000000000000000000000000000000000000000000000000000000000000000000000000000000, 12841341638300000000000000000000000000000000000000000000000000000000000000000000000000000000, 12840052174400000000000000000000000000000000000000000000000000000000000000000000000000000000, 12838770433100000000000000000000000000000000000000000000000000000000000000000000000000000000, 12837496017400000000000000000000000000000000000000000000000000000000000000000000000000000000, 12836228554500000000000000000000000000000000000000000000000000000000000000000000000000000000, 12834967694000000000000000000000000000000000000000000000000000000000000000000000000000000000, 12833713106900000000000000000000000000000000000000000000000000000000000000000000000000000000, 12832464483400000000000000000000000000000000000000000000000000000000000000000000000000000000, 12831221532000000000000000000000000000000000000000000000000000000000000000000000000000000000, 12829983978100000000000000000000000000000000000000000000000000000000000000000000000000000000, 12828751562400000000000000000000000000000000000000000000000000000000000000000000000000000000, 12827524040500000000000000000000000000000000000000000000000000000000000000000000000000000000]),
  (496645891784000, [12870233773900000000000000000000000000000000000000000000000000000000000000000000000000000000, 12867545863600000000000000000000000000000000000000000000000000000000000000000000000000000000, 12866580938100000000000000000000000000000000000000000000000000000000000000000000000000000000, 12865632393500000000000000000000000000000000000000000000000000000000000000000000000000000000, 12864481262800000000000000000000000000000000000000000000000000000000000000000000000000000000, 12863165288000000000000000000000000000000000000000000000000000000000000000000000000000000000, 12861744741800000000000000000000000000000000000000000000000000000000000000000000000000000000, 12860265299800000000000000000000000000000000000000000000000000000000000000000000000000000000, 12858757071600000000000000000000000000000000000000000000000000000000000000000000000000000000, 12857238923000000000000000000000000000000000000000000000000000000000000000000000000000000000, 12855722347800000000000000000000000000000000000000000000000000000000000000000000000000000000, 12854214169800000000000000000000000000000000000000000000000000000000000000000000000000000000, 12852718293000000000000000000000000000000000000000000000000000000000000000000000000000000000, 12851236805100000000000000000000000000000000000000000000000000000000000000000000000000000000, 12849770669100000000000000000000000000000000000000000000000000000000000000000000000000000000, 12848320154100000000000000000000000000000000000000000000000000000000000000000000000000000000, 12846885106900000000000000000000000000000000000000000000000000000000000000000000000000000000, 12845465122200000000000000000000000000000000000000000000000000000000000000000000000000000000, 12844059650600000000000000000000000000000000000000000000000000000000000000000000000000000000, 12842668067000000000000000000000000000000000000000000000000000000000000000000000000000000000, 12841289714300000000000000000000000000000000000000000000000000000000000000000000000000000000, 12839923930100000000000000000000000000000000000000000000000000000000000000000000000000000000, 12838570063500000000000000000000000000000000000000000000000000000000000000000000000000000000, 12837227485900000000000000000000000000000000000000000000000000000000000000000000000000000000, 12835895595700000000000000000000000000000000000000000000000000000000000000000000000000000000, 12834573821900000000000000000000000000000000000000000000000000000000000000000000000000000000, 12833261624800000000000000000000000000000000000000000000000000000000000000000000000000000000, 12831958495900000000000000000000000000000000000000000000000000000000000000000000000000000000, 12830663957100000000000000000000000000000000000000000000000000000000000000000000000000000000, 12829377559400000000000000000000000000000000000000000000000000000000000000000000000000000000, 12828098881100000000000000000000000000000000000000000000000000000000000000000000000000000000, 12826827526400000000000000000000000000000000000000000000000000000000000000000000000000000000, 12825563123900000000000000000000000000000000000000000000000000000000000000000000000000000000, 12824305324300000000000000000000000000000000000000000000000000000000000000000000000000000000, 12823053799800000000000000000000000000000000000000000000000000000000000000000000000000000000, 12821808241500000000000000000000000000000000000000000000000000000000000000000000000000000000, 12820568359100000000000000000000000000000000000000000000000000000000000000000000000000000000, 12819333878700000000000000000000000000000000000000000000000000000000000000000000000000000000, 12818104542000000000000000000000000000000000000000000000000000000000000000000000000000000000, 12816880105200000000000000000000000000000000000000000000000000000000000000000000000000000000]),
  (498749899800000, [12859412777400000000000000000000000000000000000000000000000000000000000000000000000000000000, 12856725323500000000000000000000000000000000000000000000000000000000000000000000000000000000, 12855762704000000000000000000000000000000000000000000000000000000000000000000000000000000000, 12854818021000000000000000000000000000000000000000000000000000000000000000000000000000000000, 12853671219500000000000000000000000000000000000000000000000000000000000000000000000000000000, 12852359515000000000000000000000000000000000000000000000000000000000000000000000000000000000, 12850943023100000000000000000000000000000000000000000000000000000000000000000000000000000000, 12849467407500000000000000000000000000000000000000000000000000000000000000000000000000000000, 12847962809400000000000000000000000000000000000000000000000000000000000000000000000000000000, 12846448132600000000000000000000000000000000000000000000000000000000000000000000000000000000, 12844934904400000000000000000000000000000000000000000000000000000000000000000000000000000000, 12843429975100000000000000000000000000000000000000000000000000000000000000000000000000000000, 12841937268300000000000000000000000000000000000000000000000000000000000000000000000000000000, 12840458886600000000000000000000000000000000000000000000000000000000000000000000000000000000, 12838995803300000000000000000000000000000000000000000000000000000000000000000000000000000000, 12837548295500000000000000000000000000000000000000000000000000000000000000000000000000000000, 12836116215900000000000000000000000000000000000000000000000000000000000000000000000000000000, 12834699163800000000000000000000000000000000000000000000000000000000000000000000000000000000, 12833296593700000000000000000000000000000000000000000000000000000000000000000000000000000000, 12831907884100000000000000000000000000000000000000000000000000000000000000000000000000000000, 12830532380400000000000000000000000000000000000000000000000000000000000000000000000000000000, 12829169423100000000000000000000000000000000000000000000000000000000000000000000000000000000, 12827818364000000000000000000000000000000000000000000000000000000000000000000000000000000000, 12826478576500000000000000000000000000000000000000000000000000000000000000000000000000000000, 12825149461300000000000000000000000000000000000000000000000000000000000000000000000000000000, 12823830449500000000000000000000000000000000000000000000000000000000000000000000000000000000, 12822521003400000000000000000000000000000000000000000000000000000000000000000000000000000000, 12821220616200000000000000000000000000000000000000000000000000000000000000000000000000000000, 12819928811600000000000000000000000000000000000000000000000000000000000000000000000000000000, 12818645142100000000000000000000000000000000000000000000000000000000000000000000000000000000, 12817369187500000000000000000000000000000000000000000000000000000000000000000000000000000000, 12816100553600000000000000000000000000000000000000000000000000000000000000000000000000000000, 12814838869900000000000000000000000000000000000000000000000000000000000000000000000000000000, 12813583788800000000000000000000000000000000000000000000000000000000000000000000000000000000, 12812334983100000000000000000000000000000000000000000000000000000000000000000000000000000000, 12811092145500000000000000000000000000000000000000000000000000000000000000000000000000000000, 12809854986300000000000000000000000000000000000000000000000000000000000000000000000000000000, 12808623232700000000000000000000000000000000000000000000000000000000000000000000000000000000, 12807396627300000000000000000000000000000000000000000000000000000000000000000000000000000000, 12806174927000000000000000000000000000000000000000000000000000000000000000000000000000000000]),
  (500853907816000, [12848537805400000000000000000000000000000000000000000000000000000000000000000000000000000000, 12845854475200000000000000000000000000000000000000000000000000000000000000000000000000000000, 12844894958900000000000000000000000000000000000000000000000000000000000000000000000000000000, 12843953721500000000000000000000000000000000000000000000000000000000000000000000000000000000, 12842810576100000000000000000000000000000000000000000000000000000000000000000000000000000000, 12841502525200000000000000000000000000000000000000000000000000000000000000000000000000000000, 12840089576600000000000000000000000000000000000000000000000000000000000000000000000000000000, 12838617361600000000000000000000000000000000000000000000000000000000000000000000000000000000, 12837116025000000000000000000000000000000000000000000000000000000000000000000000000000000000, 12835604487000000000000000000000000000000000000000000000000000000000000000000000000000000000, 12834094293700000000000000000000000000000000000000000000000000000000000000000000000000000000, 12832592312300000000000000000000000000000000000000000000000000000000000000000000000000000000, 12831102480200000000000000000000000000000000000000000000000000000000000000000000000000000000, 12829626910900000000000000000000000000000000000000000000000000000000000000000000000000000000, 12828166586200000000000000000000000000000000000000000000000000000000000000000000000000000000, 12826721790200000000000000000000000000000000000000000000000000000000000000000000000000000000, 12825292380700000000000000000000000000000000000000000000000000000000000000000000000000000000, 12823877961800000000000000000000000000000000000000000000000000000000000000000000000000000000, 12822477991700000000000000000000000000000000000000000000000000000000000000000000000000000000, 12821091852200000000000000000000000000000000000000000000000000000000000000000000000000000000, 12819718892100000000000000000000000000000000000000000000000000000000000000000000000000000000, 12818358454500000000000000000000000000000000000000000000000000000000000000000000000000000000, 12817009893900000000000000000000000000000000000000000000000000000000000000000000000000000000, 12815672586000000000000000000000000000000000000000000000000000000000000000000000000000000000, 12814345933900000000000000000000000000000000000000000000000000000000000000000000000000000000, 12813029370900000000000000000000000000000000000000000000000000000000000000000000000000000000, 12811722361100000000000000000000000000000000000000000000000000000000000000000000000000000000, 12810424399800000000000000000000000000000000000000000000000000000000000000000000000000000000, 12809135012300000000000000000000000000000000000000000000000000000000000000000000000000000000, 12807853752600000000000000000000000000000000000000000000000000000000000000000000000000000000, 12806580202300000000000000000000000000000000000000000000000000000000000000000000000000000000, 12805313968400000000000000000000000000000000000000000000000000000000000000000000000000000000, 12804054681900000000000000000000000000000000000000000000000000000000000000000000000000000000, 12802801996300000000000000000000000000000000000000000000000000000000000000000000000000000000, 12801555585700000000000000000000000000000000000000000000000000000000000000000000000000000000, 12800315143700000000000000000000000000000000000000000000000000000000000000000000000000000000, 12799080381700000000000000000000000000000000000000000000000000000000000000000000000000000000, 12797851027800000000000000000000000000000000000000000000000000000000000000000000000000000000, 12796626825500000000000000000000000000000000000000000000000000000000000000000000000000000000, 12795407532700000000000000000000000000000000000000000000000000000000000000000000000000000000]),
  (502957915832000, [12837609385000000000000000000000000000000000000000000000000000000000000000000000000000000000, 12834932078900000000000000000000000000000000000000000000000000000000000000000000000000000000, 12833976041500000000000000000000000000000000000000000000000000000000000000000000000000000000, 12833037790600000000000000000000000000000000000000000000000000000000000000000000000000000000, 12831897624900000000000000000000000000000000000000000000000000000000000000000000000000000000, 12830592590000000000000000000000000000000000000000000000000000000000000000000000000000000000, 12829182641600000000000000000000000000000000000000000000000000000000000000000000000000000000, 12827713368700000000000000000000000000000000000000000000000000000000000000000000000000000000, 12826214897800000000000000000000000000000000000000000000000000000000000000000000000000000000, 12824706146600000000000000000000000000000000000000000000000000000000000000000000000000000000, 12823198665500000000000000000000000000000000000000000000000000000000000000000000000000000000, 12821699327800000000000000000000000000000000000000000000000000000000000000000000000000000000, 12820212077500000000000000000000000000000000000000000000000000000000000000000000000000000000, 12818739034100000000000000000000000000000000000000000000000000000000000000000000000000000000, 12817281184800000000000000000000000000000000000000000000000000000000000000000000000000000000, 12815838818100000000000000000000000000000000000000000000000000000000000000000000000000000000, 12814411796300000000000000000000000000000000000000000000000000000000000000000000000000000000, 12812999727100000000000000000000000000000000000000000000000000000000000000000000000000000000, 12811602072400000000000000000000000000000000000000000000000000000000000000000000000000000000, 12810218217200000000000000000000000000000000000000000000000000000000000000000000000000000000, 12808847513200000000000000000000000000000000000000000000000000000000000000000000000000000000, 12807489306500000000000000000000000000000000000000000000000000000000000000000000000000000000, 12806142954000000000000000000000000000000000000000000000000000000000000000000000000000000000, 12804807834100000000000000000000000000000000000000000000000000000000000000000000000000000000, 12803483352300000000000000000000000000000000000000000000000000000000000000000000000000000000, 12802168943800000000000000000000000000000000000000000000000000000000000000000000000000000000, 12800864074900000000000000000000000000000000000000000000000000000000000000000000000000000000, 12799568242800000000000000000000000000000000000000000000000000000000000000000000000000000000, 12798280974400000000000000000000000000000000000000000000000000000000000000000000000000000000, 12797001825600000000000000000000000000000000000000000000000000000000000000000000000000000000, 12795730379300000000000000000000000000000000000000000000000000000000000000000000000000000000, 12794466244000000000000000000000000000000000000000000000000000000000000000000000000000000000, 12793209052200000000000000000000000000000000000000000000000000000000000000000000000000000000, 12791958458400000000000000000000000000000000000000000000000000000000000000000000000000000000, 12790714138100000000000000000000000000000000000000000000000000000000000000000000000000000000, 12789475785800000000000000000000000000000000000000000000000000000000000000000000000000000000, 12788243114100000000000000000000000000000000000000000000000000000000000000000000000000000000, 12787015852000000000000000000000000000000000000000000000000000000000000000000000000000000000, 12785793743900000000000000000000000000000000000000000000000000000000000000000000000000000000, 12784576548500000000000000000000000000000000000000000000000000000000000000000000000000000000]),
  (505061923848000, [12826627663900000000000000000000000000000000000000000000000000000000000000000000000000000000, 12823956681800000000000000000000000000000000000000000000000000000000000000000000000000000000, 12823003786300000000000000000000000000000000000000000000000000000000000000000000000000000000, 12822067894700000000000000000000000000000000000000000000000000000000000000000000000000000000, 12820930030400000000000000000000000000000000000000000000000000000000000000000000000000000000, 12819627395400000000000000000000000000000000000000000000000000000000000000000000000000000000, 12818219918500000000000000000000000000000000000000000000000000000000000000000000000000000000, 12816753137400000000000000000000000000000000000000000000000000000000000000000000000000000000, 12815257142700000000000000000000000000000000000000000000000000000000000000000000000000000000, 12813750832900000000000000000000000000000000000000000000000000000000000000000000000000000000, 12812245749200000000000000000000000000000000000000000000000000000000000000000000000000000000, 12810748761100000000000000000000000000000000000000000000000000000000000000000000000000000000, 12809263811800000000000000000000000000000000000000000000000000000000000000000000000000000000, 12807793021300000000000000000000000000000000000000000000000000000000000000000000000000000000, 12806337378700000000000000000000000000000000000000000000000000000000000000000000000000000000, 12804897175000000000000000000000000000000000000000000000000000000000000000000000000000000000, 12803472275100000000000000000000000000000000000000000000000000000000000000000000000000000000, 12802062289700000000000000000000000000000000000000000000000000000000000000000000000000000000, 12800666683600000000000000000000000000000000000000000000000000000000000000000000000000000000, 12799284844800000000000000000000000000000000000000000000000000000000000000000000000000000000, 12797916127900000000000000000000000000000000000000000000000000000000000000000000000000000000, 12796559881700000000000000000000000000000000000000000000000000000000000000000000000000000000, 12795215465900000000000000000000000000000000000000000000000000000000000000000000000000000000, 12793882261300000000000000000000000000000000000000000000000000000000000000000000000000000000, 12792559675500000000000000000000000000000000000000000000000000000000000000000000000000000000, 12791247146200000000000000000000000000000000000000000000000000000000000000000000000000000000, 12789944141600000000000000000000000000000000000000000000000000000000000000000000000000000000, 12788650160800000000000000000000000000000000000000000000000000000000000000000000000000000000, 12787364732500000000000000000000000000000000000000000000000000000000000000000000000000000000, 12786087414300000000000000000000000000000000000000000000000000000000000000000000000000000000, 12784817790600000000000000000000000000000000000000000000000000000000000000000000000000000000, 12783555471500000000000000000000000000000000000000000000000000000000000000000000000000000000, 12782300090500000000000000000000000000000000000000000000000000000000000000000000000000000000, 12781051303700000000000000000000000000000000000000000000000000000000000000000000000000000000, 12779808787600000000000000000000000000000000000000000000000000000000000000000000000000000000, 12778572238000000000000000000000000000000000000000000000000000000000000000000000000000000000, 12777341368300000000000000000000000000000000000000000000000000000000000000000000000000000000, 12776115908600000000000000000000000000000000000000000000000000000000000000000000000000000000, 12774895604300000000000000000000000000000000000000000000000000000000000000000000000000000000, 12773680214800000000000000000000000000000000000000000000000000000000000000000000000000000000]),
  (507165931864000, [12815589622000000000000000000000000000000000000000000000000000000000000000000000000000000000, 12812925502900000000000000000000000000000000000000000000000000000000000000000000000000000000, 12811975138500000000000000000000000000000000000000000000000000000000000000000000000000000000, 12811040928100000000000000000000000000000000000000000000000000000000000000000000000000000000, 12809904760100000000000000000000000000000000000000000000000000000000000000000000000000000000, 12808604000500000000000000000000000000000000000000000000000000000000000000000000000000000000, 12807198544100000000000000000000000000000000000000000000000000000000000000000000000000000000, 12805733864800000000000000000000000000000000000000000000000000000000000000000000000000000000, 12804240003700000000000000000000000000000000000000000000000000000000000000000000000000000000, 12802735827200000000000000000000000000000000000000000000000000000000000000000000000000000000, 12801232856900000000000000000000000000000000000000000000000000000000000000000000000000000000, 12799737950500000000000000000000000000000000000000000000000000000000000000000000000000000000, 12798255044400000000000000000000000000000000000000000000000000000000000000000000000000000000, 12796786255400000000000000000000000000000000000000000000000000000000000000000000000000000000, 12795332571300000000000000000000000000000000000000000000000000000000000000000000000000000000, 12793894283800000000000000000000000000000000000000000000000000000000000000000000000000000000, 12792471259300000000000000000000000000000000000000000000000000000000000000000000000000000000, 12791063110700000000000000000000000000000000000000000000000000000000000000000000000000000000, 12789669305400000000000000000000000000000000000000000000000000000000000000000000000000000000, 12788289234100000000000000000000000000000000000000000000000000000000000000000000000000000000, 12786922254200000000000000000000000000000000000000000000000000000000000000000000000000000000, 12785567717100000000000000000000000000000000000000000000000000000000000000000000000000000000, 12784224985200000000000000000000000000000000000000000000000000000000000000000000000000000000, 12782893441700000000000000000000000000000000000000000000000000000000000000000000000000000000, 12781572496800000000000000000000000000000000000000000000000000000000000000000000000000000000, 12780261590000000000000000000000000000000000000000000000000000000000000000000000000000000000, 12778960191700000000000000000000000000000000000000000000000000000000000000000000000000000000, 12777667803000000000000000000000000000000000000000000000000000000000000000000000000000000000, 12776383954400000000000000000000000000000000000000000000000000000000000000000000000000000000, 12775108205100000000000000000000000000000000000000000000000000000000000000000000000000000000, 12773840141100000000000000000000000000000000000000000000000000000000000000000000000000000000, 12772579373800000000000000000000000000000000000000000000000000000000000000000000000000000000, 12771325538300000000000000000000000000000000000000000000000000000000000000000000000000000000, 12770078291900000000000000000000000000000000000000000000000000000000000000000000000000000000, 12768837312300000000000000000000000000000000000000000000000000000000000000000000000000000000, 12767602296300000000000000000000000000000000000000000000000000000000000000000000000000000000, 12766372958600000000000000000000000000000000000000000000000000000000000000000000000000000000, 12765149030100000000000000000000000000000000000000000000000000000000000000000000000000000000, 12763930257000000000000000000000000000000000000000000000000000000000000000000000000000000000, 12762716400000000000000000000000000000000000000000000000000000000000000000000000000000000000]),
  (509269939880000, [12804490170400000000000000000000000000000000000000000000000000000000000000000000000000000000, 12801834092600000000000000000000000000000000000000000000000000000000000000000000000000000000, 12800885953600000000000000000000000000000000000000000000000000000000000000000000000000000000, 12799952964100000000000000000000000000000000000000000000000000000000000000000000000000000000, 12798818093000000000000000000000000000000000000000000000000000000000000000000000000000000000, 12797518862700000000000000000000000000000000000000000000000000000000000000000000000000000000, 12796115119000000000000000000000000000000000000000000000000000000000000000000000000000000000, 12794652262300000000000000000000000000000000000000000000000000000000000000000000000000000000, 12793160277100000000000000000000000000000000000000000000000000000000000000000000000000000000, 12791657991000000000000000000000000000000000000000000000000000000000000000000000000000000000, 12790156900900000000000000000000000000000000000000000000000000000000000000000000000000000000, 12788663848900000000000000000000000000000000000000000000000000000000000000000000000000000000, 12787182761800000000000000000000000000000000000000000000000000000000000000000000000000000000, 12785715751100000000000000000000000000000000000000000000000000000000000000000000000000000000, 12784263802600000000000000000000000000000000000000000000000000000000000000000000000000000000, 12782827207600000000000000000000000000000000000000000000000000000000000000000000000000000000, 12781405833700000000000000000000000000000000000000000000000000000000000000000000000000000000, 12779999295700000000000000000000000000000000000000000000000000000000000000000000000000000000, 12778607063600000000000000000000000000000000000000000000000000000000000000000000000000000000, 12777228530600000000000000000000000000000000000000000000000000000000000000000000000000000000, 12775863056900000000000000000000000000000000000000000000000000000000000000000000000000000000, 12774509996700000000000000000000000000000000000000000000000000000000000000000000000000000000, 12773168714900000000000000000000000000000000000000000000000000000000000000000000000000000000, 12771838597300000000000000000000000000000000000000000000000000000000000000000000000000000000, 12770519056400000000000000000000000000000000000000000000000000000000000000000000000000000000, 12769209534100000000000000000000000000000000000000000000000000000000000000000000000000000000, 12767909502700000000000000000000000000000000000000000000000000000000000000000000000000000000, 12766618465200000000000000000000000000000000000000000000000000000000000000000000000000000000, 12765335954100000000000000000000000000000000000000000000000000000000000000000000000000000000, 12764061530100000000000000000000000000000000000000000000000000000000000000000000000000000000, 12762794780800000000000000000000000000000000000000000000000000000000000000000000000000000000, 12761535319300000000000000000000000000000000000000000000000000000000000000000000000000000000, 12760282781900000000000000000000000000000000000000000000000000000000000000000000000000000000, 12759036827100000000000000000000000000000000000000000000000000000000000000000000000000000000, 12757797134000000000000000000000000000000000000000000000000000000000000000000000000000000000, 12756563400500000000000000000000000000000000000000000000000000000000000000000000000000000000, 12755335342200000000000000000000000000000000000000000000000000000000000000000000000000000000, 12754112691200000000000000000000000000000000000000000000000000000000000000000000000000000000, 12752895194700000000000000000000000000000000000000000000000000000000000000000000000000000000, 12751682614100000000000000000000000000000000000000000000000000000000000000000000000000000000]),
  (511373947896000, [12793324598900000000000000000000000000000000000000000000000000000000000000000000000000000000, 12790676969900000000000000000000000000000000000000000000000000000000000000000000000000000000, 12789731215700000000000000000000000000000000000000000000000000000000000000000000000000000000, 12788799405900000000000000000000000000000000000000000000000000000000000000000000000000000000, 12787665749100000000000000000000000000000000000000000000000000000000000000000000000000000000, 12786367946000000000000000000000000000000000000000000000000000000000000000000000000000000000, 12784965794000000000000000000000000000000000000000000000000000000000000000000000000000000000, 12783504623000000000000000000000000000000000000000000000000000000000000000000000000000000000, 12782014363200000000000000000000000000000000000000000000000000000000000000000000000000000000, 12780513806200000000000000000000000000000000000000000000000000000000000000000000000000000000, 12779014425800000000000000000000000000000000000000000000000000000000000000000000000000000000, 12777523049700000000000000000000000000000000000000000000000000000000000000000000000000000000, 12776043596700000000000000000000000000000000000000000000000000000000000000000000000000000000, 12774578174300000000000000000000000000000000000000000000000000000000000000000000000000000000, 12773127766700000000000000000000000000000000000000000000000000000000000000000000000000000000, 12771692665800000000000000000000000000000000000000000000000000000000000000000000000000000000, 12770272741000000000000000000000000000000000000000000000000000000000000000000000000000000000, 12768867609300000000000000000000000000000000000000000000000000000000000000000000000000000000, 12767476743400000000000000000000000000000000000000000000000000000000000000000000000000000000, 12766099539700000000000000000000000000000000000000000000000000000000000000000000000000000000, 12764735361200000000000000000000000000000000000000000000000000000000000000000000000000000000, 12763383564900000000000000000000000000000000000000000000000000000000000000000000000000000000, 12762043518400000000000000000000000000000000000000000000000000000000000000000000000000000000, 12760714610300000000000000000000000000000000000000000000000000000000000000000000000000000000, 12759396255300000000000000000000000000000000000000000000000000000000000000000000000000000000, 12758087897600000000000000000000000000000000000000000000000000000000000000000000000000000000, 12756789011800000000000000000000000000000000000000000000000000000000000000000000000000000000, 12755499102800000000000000000000000000000000000000000000000000000000000000000000000000000000, 12754217704800000000000000000000000000000000000000000000000000000000000000000000000000000000, 12752944380300000000000000000000000000000000000000000000000000000000000000000000000000000000, 12751678718700000000000000000000000000000000000000000000000000000000000000000000000000000000, 12750420334300000000000000000000000000000000000000000000000000000000000000000000000000000000, 12749168864900000000000000000000000000000000000000000000000000000000000000000000000000000000, 12747923970500000000000000000000000000000000000000000000000000000000000000000000000000000000, 12746685331200000000000000000000000000000000000000000000000000000000000000000000000000000000, 12745452646100000000000000000000000000000000000000000000000000000000000000000000000000000000, 12744225632100000000000000000000000000000000000000000000000000000000000000000000000000000000, 12743004022200000000000000000000000000000000000000000000000000000000000000000000000000000000, 12741787564500000000000000000000000000000000000000000000000000000000000000000000000000000000, 12740576021400000000000000000000000000000000000000000000000000000000000000000000000000000000]),
  (513477955912000, [12782088829900000000000000000000000000000000000000000000000000000000000000000000000000000000, 12779448605600000000000000000000000000000000000000000000000000000000000000000000000000000000, 12778505605200000000000000000000000000000000000000000000000000000000000000000000000000000000, 12777575331000000000000000000000000000000000000000000000000000000000000000000000000000000000, 12776443128400000000000000000000000000000000000000000000000000000000000000000000000000000000, 12775146895100000000000000000000000000000000000000000000000000000000000000000000000000000000, 12773746399000000000000000000000000000000000000000000000000000000000000000000000000000000000, 12772286916100000000000000000000000000000000000000000000000000000000000000000000000000000000, 12770798336900000000000000000000000000000000000000000000000000000000000000000000000000000000, 12769299427700000000000000000000000000000000000000000000000000000000000000000000000000000000, 12767801648100000000000000000000000000000000000000000000000000000000000000000000000000000000, 12766311818400000000000000000000000000000000000000000000000000000000000000000000000000000000, 12764833854300000000000000000000000000000000000000000000000000000000000000000000000000000000, 12763369863000000000000000000000000000000000000000000000000000000000000000000000000000000000, 12761920830400000000000000000000000000000000000000000000000000000000000000000000000000000000, 12760487050900000000000000000000000000000000000000000000000000000000000000000000000000000000, 12759068396900000000000000000000000000000000000000000000000000000000000000000000000000000000, 12757664489200000000000000000000000000000000000000000000000000000000000000000000000000000000, 12756274803900000000000000000000000000000000000000000000000000000000000000000000000000000000, 12754898740700000000000000000000000000000000000000000000000000000000000000000000000000000000, 12753535665900000000000000000000000000000000000000000000000000000000000000000000000000000000, 12752184939700000000000000000000000000000000000000000000000000000000000000000000000000000000, 12750845932700000000000000000000000000000000000000000000000000000000000000000000000000000000, 12749518036100000000000000000000000000000000000000000000000000000000000000000000000000000000, 12748200667200000000000000000000000000000000000000000000000000000000000000000000000000000000, 12746893272500000000000000000000000000000000000000000000000000000000000000000000000000000000, 12745595328800000000000000000000000000000000000000000000000000000000000000000000000000000000, 12744306343100000000000000000000000000000000000000000000000000000000000000000000000000000000, 12743025851400000000000000000000000000000000000000000000000000000000000000000000000000000000, 12741753418100000000000000000000000000000000000000000000000000000000000000000000000000000000, 12740488634100000000000000000000000000000000000000000000000000000000000000000000000000000000, 12739231115300000000000000000000000000000000000000000000000000000000000000000000000000000000, 12737980501000000000000000000000000000000000000000000000000000000000000000000000000000000000, 12736736452500000000000000000000000000000000000000000000000000000000000000000000000000000000, 12735498651100000000000000000000000000000000000000000000000000000000000000000000000000000000, 12734266797400000000000000000000000000000000000000000000000000000000000000000000000000000000, 12733040609000000000000000000000000000000000000000000000000000000000000000000000000000000000, 12731819820200000000000000000000000000000000000000000000000000000000000000000000000000000000, 12730604180300000000000000000000000000000000000000000000000000000000000000000000000000000000, 12729393452300000000000000000000000000000000000000000000000000000000000000000000000000000000]),
  (515581963928000, [12770778613100000000000000000000000000000000000000000000000000000000000000000000000000000000, 12768144122400000000000000000000000000000000000000000000000000000000000000000000000000000000, 12767204104200000000000000000000000000000000000000000000000000000000000000000000000000000000, 12766275890200000000000000000000000000000000000000000000000000000000000000000000000000000000, 12765145579600000000000000000000000000000000000000000000000000000000000000000000000000000000, 12763851223100000000000000000000000000000000000000000000000000000000000000000000000000000000, 12762452575600000000000000000000000000000000000000000000000000000000000000000000000000000000, 12760994883100000000000000000000000000000000000000000000000000000000000000000000000000000000, 12759508017000000000000000000000000000000000000000000000000000000000000000000000000000000000, 12758010735600000000000000000000000000000000000000000000000000000000000000000000000000000000, 12756514496900000000000000000000000000000000000000000000000000000000000000000000000000000000, 12755026124100000000000000000000000000000000000000000000000000000000000000000000000000000000, 12753549537400000000000000000000000000000000000000000000000000000000000000000000000000000000, 12752086849600000000000000000000000000000000000000000000000000000000000000000000000000000000, 12750639052300000000000000000000000000000000000000000000000000000000000000000000000000000000, 12749206445400000000000000000000000000000000000000000000000000000000000000000000000000000000, 12747788906800000000000000000000000000000000000000000000000000000000000000000000000000000000, 12746386062100000000000000000000000000000000000000000000000000000000000000000000000000000000, 12744997391900000000000000000000000000000000000000000000000000000000000000000000000000000000, 12743622300100000000000000000000000000000000000000000000000000000000000000000000000000000000, 12742260156800000000000000000000000000000000000000000000000000000000000000000000000000000000, 12740910325800000000000000000000000000000000000000000000000000000000000000000000000000000000, 12739572180800000000000000000000000000000000000000000000000000000000000000000000000000000000, 12738245115800000000000000000000000000000000000000000000000000000000000000000000000000000000, 12736928550900000000000000000000000000000000000000000000000000000000000000000000000000000000, 12735621935200000000000000000000000000000000000000000000000000000000000000000000000000000000, 12734324747600000000000000000000000000000000000000000000000000000000000000000000000000000000, 12733036497100000000000000000000000000000000000000000000000000000000000000000000000000000000, 12731756722000000000000000000000000000000000000000000000000000000000000000000000000000000000, 12730484988300000000000000000000000000000000000000000000000000000000000000000000000000000000, 12729220888700000000000000000000000000000000000000000000000000000000000000000000000000000000, 12727964040600000000000000000000000000000000000000000000000000000000000000000000000000000000, 12726714084900000000000000000000000000000000000000000000000000000000000000000000000000000000, 12725470684200000000000000000000000000000000000000000000000000000000000000000000000000000000, 12724233521300000000000000000000000000000000000000000000000000000000000000000000000000000000, 12723002297800000000000000000000000000000000000000000000000000000000000000000000000000000000, 12721776732800000000000000000000000000000000000000000000000000000000000000000000000000000000, 12720556561400000000000000000000000000000000000000000000000000000000000000000000000000000000, 12719341534000000000000000000000000000000000000000000000000000000000000000000000000000000000, 12718131414800000000000000000000000000000000000000000000000000000000000000000000000000000000]),
  (517685971944000, [12759389790200000000000000000000000000000000000000000000000000000000000000000000000000000000, 12756759473600000000000000000000000000000000000000000000000000000000000000000000000000000000, 12755822314900000000000000000000000000000000000000000000000000000000000000000000000000000000, 12754896573600000000000000000000000000000000000000000000000000000000000000000000000000000000, 12753768590600000000000000000000000000000000000000000000000000000000000000000000000000000000, 12752476444400000000000000000000000000000000000000000000000000000000000000000000000000000000, 12751079871500000000000000000000000000000000000000000000000000000000000000000000000000000000, 12749624105700000000000000000000000000000000000000000000000000000000000000000000000000000000, 12748139018000000000000000000000000000000000000000000000000000000000000000000000000000000000, 12746643374500000000000000000000000000000000000000000000000000000000000000000000000000000000, 12745148645100000000000000000000000000000000000000000000000000000000000000000000000000000000, 12743661665700000000000000000000000000000000000000000000000000000000000000000000000000000000, 12742186369400000000000000000000000000000000000000000000000000000000000000000000000000000000, 12740724880300000000000000000000000000000000000000000000000000000000000000000000000000000000, 12739278200500000000000000000000000000000000000000000000000000000000000000000000000000000000, 12737846638500000000000000000000000000000000000000000000000000000000000000000000000000000000, 12736430079900000000000000000000000000000000000000000000000000000000000000000000000000000000, 12735028156800000000000000000000000000000000000000000000000000000000000000000000000000000000, 12733640355400000000000000000000000000000000000000000000000000000000000000000000000000000000, 12732266084800000000000000000000000000000000000000000000000000000000000000000000000000000000, 12730904719300000000000000000000000000000000000000000000000000000000000000000000000000000000, 12729555626500000000000000000000000000000000000000000000000000000000000000000000000000000000, 12728218183700000000000000000000000000000000000000000000000000000000000000000000000000000000, 12726891788000000000000000000000000000000000000000000000000000000000000000000000000000000000, 12725575862300000000000000000000000000000000000000000000000000000000000000000000000000000000, 12724269858300000000000000000000000000000000000000000000000000000000000000000000000000000000, 12722973257500000000000000000000000000000000000000000000000000000000000000000000000000000000, 12721685571000000000000000000000000000000000000000000000000000000000000000000000000000000000, 12720406339000000000000000000000000000000000000000000000000000000000000000000000000000000000, 12719135129600000000000000000000000000000000000000000000000000000000000000000000000000000000, 12717871537200000000000000000000000000000000000000000000000000000000000000000000000000000000, 12716615181000000000000000000000000000000000000000000000000000000000000000000000000000000000, 12715365703400000000000000000000000000000000000000000000000000000000000000000000000000000000, 12714122768400000000000000000000000000000000000000000000000000000000000000000000000000000000, 12712886060200000000000000000000000000000000000000000000000000000000000000000000000000000000, 12711655281700000000000000000000000000000000000000000000000000000000000000000000000000000000, 12710430153200000000000000000000000000000000000000000000000000000000000000000000000000000000, 12709210411100000000000000000000000000000000000000000000000000000000000000000000000000000000, 12707995806700000000000000000000000000000000000000000000000000000000000000000000000000000000, 12706786105300000000000000000000000000000000000000000000000000000000000000000000000000000000]),
  (519789979960000, [12747918647700000000000000000000000000000000000000000000000000000000000000000000000000000000, 12745291074600000000000000000000000000000000000000000000000000000000000000000000000000000000, 12744356339800000000000000000000000000000000000000000000000000000000000000000000000000000000, 12743433211400000000000000000000000000000000000000000000000000000000000000000000000000000000, 12742307813500000000000000000000000000000000000000000000000000000000000000000000000000000000, 12741018101100000000000000000000000000000000000000000000000000000000000000000000000000000000, 12739623764900000000000000000000000000000000000000000000000000000000000000000000000000000000, 12738170028400000000000000000000000000000000000000000000000000000000000000000000000000000000, 12736686770200000000000000000000000000000000000000000000000000000000000000000000000000000000, 12735192773100000000000000000000000000000000000000000000000000000000000000000000000000000000, 12733699527000000000000000000000000000000000000000000000000000000000000000000000000000000000, 12732213888400000000000000000000000000000000000000000000000000000000000000000000000000000000, 12730739809100000000000000000000000000000000000000000000000000000000000000000000000000000000, 12729279429800000000000000000000000000000000000000000000000000000000000000000000000000000000, 12727833766200000000000000000000000000000000000000000000000000000000000000000000000000000000, 12726403138800000000000000000000000000000000000000000000000000000000000000000000000000000000, 12724987442400000000000000000000000000000000000000000000000000000000000000000000000000000000, 12723586317200000000000000000000000000000000000000000000000000000000000000000000000000000000, 12722199256200000000000000000000000000000000000000000000000000000000000000000000000000000000, 12720825673800000000000000000000000000000000000000000000000000000000000000000000000000000000, 12719464949600000000000000000000000000000000000000000000000000000000000000000000000000000000, 12718116455100000000000000000000000000000000000000000000000000000000000000000000000000000000, 12716779571500000000000000000000000000000000000000000000000000000000000000000000000000000000, 12715453699300000000000000000000000000000000000000000000000000000000000000000000000000000000, 12714138264500000000000000000000000000000000000000000000000000000000000000000000000000000000, 12712832721400000000000000000000000000000000000000000000000000000000000000000000000000000000, 12711536554000000000000000000000000000000000000000000000000000000000000000000000000000000000, 12710249276000000000000000000000000000000000000000000000000000000000000000000000000000000000, 12708970429500000000000000000000000000000000000000000000000000000000000000000000000000000000, 12707699584800000000000000000000000000000000000000000000000000000000000000000000000000000000, 12706436338100000000000000000000000000000000000000000000000000000000000000000000000000000000, 12705180310400000000000000000000000000000000000000000000000000000000000000000000000000000000, 12703931145600000000000000000000000000000000000000000000000000000000000000000000000000000000, 12702688509300000000000000000000000000000000000000000000000000000000000000000000000000000000, 12701452087300000000000000000000000000000000000000000000000000000000000000000000000000000000, 12700221583700000000000000000000000000000000000000000000000000000000000000000000000000000000, 12698996720200000000000000000000000000000000000000000000000000000000000000000000000000000000, 12697777234200000000000000000000000000000000000000000000000000000000000000000000000000000000, 12696562878500000000000000000000000000000000000000000000000000000000000000000000000000000000, 12695353419200000000000000000000000000000000000000000000000000000000000000000000000000000000]),
  (521893987976000, [12736360870200000000000000000000000000000000000000000000000000000000000000000000000000000000, 12733735042800000000000000000000000000000000000000000000000000000000000000000000000000000000, 12732802320100000000000000000000000000000000000000000000000000000000000000000000000000000000, 12731881715900000000000000000000000000000000000000000000000000000000000000000000000000000000, 12730758916900000000000000000000000000000000000000000000000000000000000000000000000000000000, 12729471677300000000000000000000000000000000000000000000000000000000000000000000000000000000, 12728079616000000000000000000000000000000000000000000000000000000000000000000000000000000000, 12726627933400000000000000000000000000000000000000000000000000000000000000000000000000000000, 12725146509500000000000000000000000000000000000000000000000000000000000000000000000000000000, 12723654142100000000000000000000000000000000000000000000000000000000000000000000000000000000, 12722162342600000000000000000000000000000000000000000000000000000000000000000000000000000000, 12720677990800000000000000000000000000000000000000000000000000000000000000000000000000000000, 12719205060300000000000000000000000000000000000000000000000000000000000000000000000000000000, 12717745711100000000000000000000000000000000000000000000000000000000000000000000000000000000, 12716300974900000000000000000000000000000000000000000000000000000000000000000000000000000000, 12714871185500000000000000000000000000000000000000000000000000000000000000000000000000000000, 12713456248600000000000000000000000000000000000000000000000000000000000000000000000000000000, 12712055813200000000000000000000000000000000000000000000000000000000000000000000000000000000, 12710669379800000000000000000000000000000000000000000000000000000000000000000000000000000000, 12709296368900000000000000000000000000000000000000000000000000000000000000000000000000000000, 12707936165300000000000000000000000000000000000000000000000000000000000000000000000000000000, 12706588145200000000000000000000000000000000000000000000000000000000000000000000000000000000, 12705251693700000000000000000000000000000000000000000000000000000000000000000000000000000000, 12703926214900000000000000000000000000000000000000000000000000000000000000000000000000000000, 12702611138000000000000000000000000000000000000000000000000000000000000000000000000000000000, 12701305920300000000000000000000000000000000000000000000000000000000000000000000000000000000, 12700010048400000000000000000000000000000000000000000000000000000000000000000000000000000000, 12698723038400000000000000000000000000000000000000000000000000000000000000000000000000000000, 12697444435000000000000000000000000000000000000000000000000000000000000000000000000000000000, 12696173810300000000000000000000000000000000000000000000000000000000000000000000000000000000, 12694910762600000000000000000000000000000000000000000000000000000000000000000000000000000000, 12693654914700000000000000000000000000000000000000000000000000000000000000000000000000000000, 12692405912300000000000000000000000000000000000000000000000000000000000000000000000000000000, 12691163422600000000000000000000000000000000000000000000000000000000000000000000000000000000, 12689927133000000000000000000000000000000000000000000000000000000000000000000000000000000000, 12688696748900000000000000000000000000000000000000000000000000000000000000000000000000000000, 12687471993300000000000000000000000000000000000000000000000000000000000000000000000000000000, 12686252605200000000000000000000000000000000000000000000000000000000000000000000000000000000, 12685038338200000000000000000000000000000000000000000000000000000000000000000000000000000000, 12683828959800000000000000000000000000000000000000000000000000000000000000000000000000000000]),
  (523997995992000, [12724710103900000000000000000000000000000000000000000000000000000000000000000000000000000000, 12722086514100000000000000000000000000000000000000000000000000000000000000000000000000000000, 12721155913000000000000000000000000000000000000000000000000000000000000000000000000000000000, 12720237707800000000000000000000000000000000000000000000000000000000000000000000000000000000, 12719117340500000000000000000000000000000000000000000000000000000000000000000000000000000000, 12717832445500000000000000000000000000000000000000000000000000000000000000000000000000000000, 12716442573900000000000000000000000000000000000000000000000000000000000000000000000000000000, 12714992885700000000000000000000000000000000000000000000000000000000000000000000000000000000, 12713513246000000000000000000000000000000000000000000000000000000000000000000000000000000000, 12712022458000000000000000000000000000000000000000000000000000000000000000000000000000000000, 12710532050200000000000000000000000000000000000000000000000000000000000000000000000000000000, 12709048923900000000000000000000000000000000000000000000000000000000000000000000000000000000, 12707577074400000000000000000000000000000000000000000000000000000000000000000000000000000000, 12706118681100000000000000000000000000000000000000000000000000000000000000000000000000000000, 12704674792500000000000000000000000000000000000000000000000000000000000000000000000000000000, 12703245756000000000000000000000000000000000000000000000000000000000000000000000000000000000, 12701831488800000000000000000000000000000000000000000000000000000000000000000000000000000000, 12700431649100000000000000000000000000000000000000000000000000000000000000000000000000000000, 12699045744800000000000000000000000000000000000000000000000000000000000000000000000000000000, 12697673203200000000000000000000000000000000000000000000000000000000000000000000000000000000, 12696313414400000000000000000000000000000000000000000000000000000000000000000000000000000000, 12694965759500000000000000000000000000000000000000000000000000000000000000000000000000000000, 12693629627600000000000000000000000000000000000000000000000000000000000000000000000000000000, 12692304426800000000000000000000000000000000000000000000000000000000000000000000000000000000, 12690989589500000000000000000000000000000000000000000000000000000000000000000000000000000000, 12689684576100000000000000000000000000000000000000000000000000000000000000000000000000000000, 12688388876200000000000000000000000000000000000000000000000000000000000000000000000000000000, 12687102008400000000000000000000000000000000000000000000000000000000000000000000000000000000, 12685823519700000000000000000000000000000000000000000000000000000000000000000000000000000000, 12684552984700000000000000000000000000000000000000000000000000000000000000000000000000000000, 12683290003600000000000000000000000000000000000000000000000000000000000000000000000000000000, 12682034201100000000000000000000000000000000000000000000000000000000000000000000000000000000, 12680785225000000000000000000000000000000000000000000000000000000000000000000000000000000000, 12679542744000000000000000000000000000000000000000000000000000000000000000000000000000000000, 12678306447000000000000000000000000000000000000000000000000000000000000000000000000000000000, 12677076041200000000000000000000000000000000000000000000000000000000000000000000000000000000, 12675851250900000000000000000000000000000000000000000000000000000000000000000000000000000000, 12674631816400000000000000000000000000000000000000000000000000000000000000000000000000000000, 12673417492500000000000000000000000000000000000000000000000000000000000000000000000000000000, 12672208048000000000000000000000000000000000000000000000000000000000000000000000000000000000])]
noncomputable def ttSpec10 : List (Nat × List Nat) := [
  (526102004008000, [12712958252400000000000000000000000000000000000000000000000000000000000000000000000000000000, 12710339585000000000000000000000000000000000000000000000000000000000000000000000000000000000, 12709411999300000000000000000000000000000000000000000000000000000000000000000000000000000000, 12708496217800000000000000000000000000000000000000000000000000000000000000000000000000000000, 12707378075700000000000000000000000000000000000000000000000000000000000000000000000000000000, 12706095321900000000000000000000000000000000000000000000000000000000000000000000000000000000, 12704707484600000000000000000000000000000000000000000000000000000000000000000000000000000000, 12703259675000000000000000000000000000000000000000000000000000000000000000000000000000000000, 12701781728500000000000000000000000000000000000000000000000000000000000000000000000000000000, 12700292442500000000000000000000000000000000000000000000000000000000000000000000000000000000, 12698803355600000000000000000000000000000000000000000000000000000000000000000000000000000000, 12697321386700000000000000000000000000000000000000000000000000000000000000000000000000000000, 12695850550100000000000000000000000000000000000000000000000000000000000000000000000000000000, 12694393043200000000000000000000000000000000000000000000000000000000000000000000000000000000, 12692949930300000000000000000000000000000000000000000000000000000000000000000000000000000000, 12691521571800000000000000000000000000000000000000000000000000000000000000000000000000000000, 12690107896000000000000000000000000000000000000000000000000000000000000000000000000000000000, 12688708570200000000000000000000000000000000000000000000000000000000000000000000000000000000, 12687323109900000000000000000000000000000000000000000000000000000000000000000000000000000000, 12685950948700000000000000000000000000000000000000000000000000000000000000000000000000000000, 12684591482500000000000000000000000000000000000000000000000000000000000000000000000000000000, 12683244097200000000000000000000000000000000000000000000000000000000000000000000000000000000, 12681908186300000000000000000000000000000000000000000000000000000000000000000000000000000000, 12680583161700000000000000000000000000000000000000000000000000000000000000000000000000000000, 12679268459400000000000000000000000000000000000000000000000000000000000000000000000000000000, 12677963543100000000000000000000000000000000000000000000000000000000000000000000000000000000, 12676667905400000000000000000000000000000000000000000000000000000000000000000000000000000000, 12675381067500000000000000000000000000000000000000000000000000000000000000000000000000000000, 12674102579100000000000000000000000000000000000000000000000000000000000000000000000000000000, 12672832017000000000000000000000000000000000000000000000000000000000000000000000000000000000, 12671568983800000000000000000000000000000000000000000000000000000000000000000000000000000000, 12670313106200000000000000000000000000000000000000000000000000000000000000000000000000000000, 12669064033800000000000000000000000000000000000000000000000000000000000000000000000000000000, 12667821437300000000000000000000000000000000000000000000000000000000000000000000000000000000, 12666585007200000000000000000000000000000000000000000000000000000000000000000000000000000000, 12665354452200000000000000000000000000000000000000000000000000000000000000000000000000000000, 12664129498200000000000000000000000000000000000000000000000000000000000000000000000000000000, 12662909886800000000000000000000000000000000000000000000000000000000000000000000000000000000, 12661695374300000000000000000000000000000000000000000000000000000000000000000000000000000000, 12660485730600000000000000000000000000000000000000000000000000000000000000000000000000000000]),
  (528206012024000, [12701097806900000000000000000000000000000000000000000000000000000000000000000000000000000000, 12698487957300000000000000000000000000000000000000000000000000000000000000000000000000000000, 12697564744900000000000000000000000000000000000000000000000000000000000000000000000000000000, 12696651604100000000000000000000000000000000000000000000000000000000000000000000000000000000, 12695535574100000000000000000000000000000000000000000000000000000000000000000000000000000000, 12694254793900000000000000000000000000000000000000000000000000000000000000000000000000000000, 12692868838000000000000000000000000000000000000000000000000000000000000000000000000000000000, 12691422779000000000000000000000000000000000000000000000000000000000000000000000000000000000, 12689946419400000000000000000000000000000000000000000000000000000000000000000000000000000000, 12688458545800000000000000000000000000000000000000000000000000000000000000000000000000000000, 12686970702200000000000000000000000000000000000000000000000000000000000000000000000000000000, 12685489820700000000000000000000000000000000000000000000000000000000000000000000000000000000, 12684019931600000000000000000000000000000000000000000000000000000000000000000000000000000000, 12682563247700000000000000000000000000000000000000000000000000000000000000000000000000000000, 12681120846900000000000000000000000000000000000000000000000000000000000000000000000000000000, 12679693101800000000000000000000000000000000000000000000000000000000000000000000000000000000, 12678279950400000000000000000000000000000000000000000000000000000000000000000000000000000000, 12676881068500000000000000000000000000000000000000000000000000000000000000000000000000000000, 12675495979200000000000000000000000000000000000000000000000000000000000000000000000000000000, 12674124122300000000000000000000000000000000000000000000000000000000000000000000000000000000, 12672764899200000000000000000000000000000000000000000000000000000000000000000000000000000000, 12671417700700000000000000000000000000000000000000000000000000000000000000000000000000000000, 12670081925000000000000000000000000000000000000000000000000000000000000000000000000000000000, 12668756987800000000000000000000000000000000000000000000000000000000000000000000000000000000, 12667442329000000000000000000000000000000000000000000000000000000000000000000000000000000000, 12666137415600000000000000000000000000000000000000000000000000000000000000000000000000000000, 12664841743100000000000000000000000000000000000000000000000000000000000000000000000000000000, 12663554836000000000000000000000000000000000000000000000000000000000000000000000000000000000, 12662276246500000000000000000000000000000000000000000000000000000000000000000000000000000000, 12661005553900000000000000000000000000000000000000000000000000000000000000000000000000000000, 12659742363100000000000000000000000000000000000000000000000000000000000000000000000000000000, 12658486303000000000000000000000000000000000000000000000000000000000000000000000000000000000, 12657237025300000000000000000000000000000000000000000000000000000000000000000000000000000000, 12655994202400000000000000000000000000000000000000000000000000000000000000000000000000000000, 12654757526700000000000000000000000000000000000000000000000000000000000000000000000000000000, 12653526708600000000000000000000000000000000000000000000000000000000000000000000000000000000, 12652301475400000000000000000000000000000000000000000000000000000000000000000000000000000000, 12651081570400000000000000000000000000000000000000000000000000000000000000000000000000000000, 12649866751000000000000000000000000000000000000000000000000000000000000000000000000000000000, 12648656788600000000000000000000000000000000000000000000000000000000000000000000000000000000]),
  (530310020040000, [12689123963700000000000000000000000000000000000000000000000000000000000000000000000000000000, 12686525677500000000000000000000000000000000000000000000000000000000000000000000000000000000, 12685607894000000000000000000000000000000000000000000000000000000000000000000000000000000000, 12684697693000000000000000000000000000000000000000000000000000000000000000000000000000000000, 12683583811000000000000000000000000000000000000000000000000000000000000000000000000000000000, 12682304942200000000000000000000000000000000000000000000000000000000000000000000000000000000, 12680920769500000000000000000000000000000000000000000000000000000000000000000000000000000000, 12679476356400000000000000000000000000000000000000000000000000000000000000000000000000000000, 12678001486400000000000000000000000000000000000000000000000000000000000000000000000000000000, 12676514939900000000000000000000000000000000000000000000000000000000000000000000000000000000, 12675028266100000000000000000000000000000000000000000000000000000000000000000000000000000000, 12673548408000000000000000000000000000000000000000000000000000000000000000000000000000000000, 12672079408500000000000000000000000000000000000000000000000000000000000000000000000000000000, 12670623493100000000000000000000000000000000000000000000000000000000000000000000000000000000, 12669181751300000000000000000000000000000000000000000000000000000000000000000000000000000000, 12667754565400000000000000000000000000000000000000000000000000000000000000000000000000000000, 12666341882700000000000000000000000000000000000000000000000000000000000000000000000000000000, 12664943386700000000000000000000000000000000000000000000000000000000000000000000000000000000, 12663558607200000000000000000000000000000000000000000000000000000000000000000000000000000000, 12662186990300000000000000000000000000000000000000000000000000000000000000000000000000000000, 12660827942800000000000000000000000000000000000000000000000000000000000000000000000000000000, 12659480860700000000000000000000000000000000000000000000000000000000000000000000000000000000, 12658145146600000000000000000000000000000000000000000000000000000000000000000000000000000000, 12656820220400000000000000000000000000000000000000000000000000000000000000000000000000000000, 12655505525800000000000000000000000000000000000000000000000000000000000000000000000000000000, 12654200533500000000000000000000000000000000000000000000000000000000000000000000000000000000, 12652904742300000000000000000000000000000000000000000000000000000000000000000000000000000000, 12651617679500000000000000000000000000000000000000000000000000000000000000000000000000000000, 12650338900300000000000000000000000000000000000000000000000000000000000000000000000000000000, 12649067986500000000000000000000000000000000000000000000000000000000000000000000000000000000, 12647804545600000000000000000000000000000000000000000000000000000000000000000000000000000000, 12646548208600000000000000000000000000000000000000000000000000000000000000000000000000000000, 12645298629400000000000000000000000000000000000000000000000000000000000000000000000000000000, 12644055482500000000000000000000000000000000000000000000000000000000000000000000000000000000, 12642818461900000000000000000000000000000000000000000000000000000000000000000000000000000000, 12641587279900000000000000000000000000000000000000000000000000000000000000000000000000000000, 12640361665500000000000000000000000000000000000000000000000000000000000000000000000000000000, 12639141363200000000000000000000000000000000000000000000000000000000000000000000000000000000, 12637926132200000000000000000000000000000000000000000000000000000000000000000000000000000000, 12636715745000000000000000000000000000000000000000000000000000000000000000000000000000000000]),
  (532414028056000, [12677034038200000000000000000000000000000000000000000000000000000000000000000000000000000000, 12674447233100000000000000000000000000000000000000000000000000000000000000000000000000000000, 12673535058200000000000000000000000000000000000000000000000000000000000000000000000000000000, 12672628028900000000000000000000000000000000000000000000000000000000000000000000000000000000, 12671516443400000000000000000000000000000000000000000000000000000000000000000000000000000000, 12670239524500000000000000000000000000000000000000000000000000000000000000000000000000000000, 12668857099800000000000000000000000000000000000000000000000000000000000000000000000000000000, 12667414264500000000000000000000000000000000000000000000000000000000000000000000000000000000, 12665940809500000000000000000000000000000000000000000000000000000000000000000000000000000000, 12664455521500000000000000000000000000000000000000000000000000000000000000000000000000000000, 12662969958000000000000000000000000000000000000000000000000000000000000000000000000000000000, 12661491072000000000000000000000000000000000000000000000000000000000000000000000000000000000, 12660022916900000000000000000000000000000000000000000000000000000000000000000000000000000000, 12658567727900000000000000000000000000000000000000000000000000000000000000000000000000000000, 12657126603800000000000000000000000000000000000000000000000000000000000000000000000000000000, 12655699935400000000000000000000000000000000000000000000000000000000000000000000000000000000, 12654287677500000000000000000000000000000000000000000000000000000000000000000000000000000000, 12652889521000000000000000000000000000000000000000000000000000000000000000000000000000000000, 12651505002000000000000000000000000000000000000000000000000000000000000000000000000000000000, 12650133572600000000000000000000000000000000000000000000000000000000000000000000000000000000, 12648774645200000000000000000000000000000000000000000000000000000000000000000000000000000000, 12647427620700000000000000000000000000000000000000000000000000000000000000000000000000000000, 12646091906500000000000000000000000000000000000000000000000000000000000000000000000000000000, 12644766926900000000000000000000000000000000000000000000000000000000000000000000000000000000, 12643452129600000000000000000000000000000000000000000000000000000000000000000000000000000000, 12642146988800000000000000000000000000000000000000000000000000000000000000000000000000000000, 12640851006900000000000000000000000000000000000000000000000000000000000000000000000000000000, 12639563714400000000000000000000000000000000000000000000000000000000000000000000000000000000, 12638284669400000000000000000000000000000000000000000000000000000000000000000000000000000000, 12637013456500000000000000000000000000000000000000000000000000000000000000000000000000000000, 12635749685700000000000000000000000000000000000000000000000000000000000000000000000000000000, 12634492990400000000000000000000000000000000000000000000000000000000000000000000000000000000, 12633243026600000000000000000000000000000000000000000000000000000000000000000000000000000000, 12631999470900000000000000000000000000000000000000000000000000000000000000000000000000000000, 12630762019300000000000000000000000000000000000000000000000000000000000000000000000000000000, 12629530385900000000000000000000000000000000000000000000000000000000000000000000000000000000, 12628304301200000000000000000000000000000000000000000000000000000000000000000000000000000000, 12627083511400000000000000000000000000000000000000000000000000000000000000000000000000000000, 12625867777200000000000000000000000000000000000000000000000000000000000000000000000000000000, 12624656872600000000000000000000000000000000000000000000000000000000000000000000000000000000]),
  (534518036072000, [12664824455300000000000000000000000000000000000000000000000000000000000000000000000000000000, 12662246961200000000000000000000000000000000000000000000000000000000000000000000000000000000, 12661339836800000000000000000000000000000000000000000000000000000000000000000000000000000000, 12660436078400000000000000000000000000000000000000000000000000000000000000000000000000000000, 12659326954000000000000000000000000000000000000000000000000000000000000000000000000000000000, 12658052059900000000000000000000000000000000000000000000000000000000000000000000000000000000, 12656671381000000000000000000000000000000000000000000000000000000000000000000000000000000000, 12655230084000000000000000000000000000000000000000000000000000000000000000000000000000000000, 12653757994900000000000000000000000000000000000000000000000000000000000000000000000000000000, 12652273919600000000000000000000000000000000000000000000000000000000000000000000000000000000, 12650789427600000000000000000000000000000000000000000000000000000000000000000000000000000000, 12649311481300000000000000000000000000000000000000000000000000000000000000000000000000000000, 12647844142200000000000000000000000000000000000000000000000000000000000000000000000000000000, 12646389652900000000000000000000000000000000000000000000000000000000000000000000000000000000, 12644949119400000000000000000000000000000000000000000000000000000000000000000000000000000000, 12643522939800000000000000000000000000000000000000000000000000000000000000000000000000000000, 12642111075700000000000000000000000000000000000000000000000000000000000000000000000000000000, 12640713224400000000000000000000000000000000000000000000000000000000000000000000000000000000, 12639328928500000000000000000000000000000000000000000000000000000000000000000000000000000000, 12637957646000000000000000000000000000000000000000000000000000000000000000000000000000000000, 12636598794700000000000000000000000000000000000000000000000000000000000000000000000000000000, 12635251781000000000000000000000000000000000000000000000000000000000000000000000000000000000, 12633916017000000000000000000000000000000000000000000000000000000000000000000000000000000000, 12632590931500000000000000000000000000000000000000000000000000000000000000000000000000000000, 12631275976400000000000000000000000000000000000000000000000000000000000000000000000000000000, 12629970629900000000000000000000000000000000000000000000000000000000000000000000000000000000, 12628674397900000000000000000000000000000000000000000000000000000000000000000000000000000000, 12627386814100000000000000000000000000000000000000000000000000000000000000000000000000000000, 12626107439900000000000000000000000000000000000000000000000000000000000000000000000000000000, 12624835862600000000000000000000000000000000000000000000000000000000000000000000000000000000, 12623571694800000000000000000000000000000000000000000000000000000000000000000000000000000000, 12622314572600000000000000000000000000000000000000000000000000000000000000000000000000000000, 12621064154000000000000000000000000000000000000000000000000000000000000000000000000000000000, 12619820117900000000000000000000000000000000000000000000000000000000000000000000000000000000, 12618582162300000000000000000000000000000000000000000000000000000000000000000000000000000000, 12617350002900000000000000000000000000000000000000000000000000000000000000000000000000000000, 12616123372300000000000000000000000000000000000000000000000000000000000000000000000000000000, 12614902018100000000000000000000000000000000000000000000000000000000000000000000000000000000, 12613685702600000000000000000000000000000000000000000000000000000000000000000000000000000000, 12612474201100000000000000000000000000000000000000000000000000000000000000000000000000000000]),
  (536622044088000, [12652488547700000000000000000000000000000000000000000000000000000000000000000000000000000000, 12649918493900000000000000000000000000000000000000000000000000000000000000000000000000000000, 12649015776000000000000000000000000000000000000000000000000000000000000000000000000000000000, 12648115277700000000000000000000000000000000000000000000000000000000000000000000000000000000, 12647008695800000000000000000000000000000000000000000000000000000000000000000000000000000000, 12645735860500000000000000000000000000000000000000000000000000000000000000000000000000000000, 12644356919100000000000000000000000000000000000000000000000000000000000000000000000000000000, 12642917135600000000000000000000000000000000000000000000000000000000000000000000000000000000, 12641446387400000000000000000000000000000000000000000000000000000000000000000000000000000000, 12639963505200000000000000000000000000000000000000000000000000000000000000000000000000000000, 12638480071300000000000000000000000000000000000000000000000000000000000000000000000000000000, 12637003055000000000000000000000000000000000000000000000000000000000000000000000000000000000, 12635536523300000000000000000000000000000000000000000000000000000000000000000000000000000000, 12634082724600000000000000000000000000000000000000000000000000000000000000000000000000000000, 12632642770600000000000000000000000000000000000000000000000000000000000000000000000000000000, 12631217065500000000000000000000000000000000000000000000000000000000000000000000000000000000, 12629805577300000000000000000000000000000000000000000000000000000000000000000000000000000000, 12628408009800000000000000000000000000000000000000000000000000000000000000000000000000000000, 12627023911900000000000000000000000000000000000000000000000000000000000000000000000000000000, 12625652747600000000000000000000000000000000000000000000000000000000000000000000000000000000, 12624293940800000000000000000000000000000000000000000000000000000000000000000000000000000000, 12622946903000000000000000000000000000000000000000000000000000000000000000000000000000000000, 12621611051500000000000000000000000000000000000000000000000000000000000000000000000000000000, 12620285819900000000000000000000000000000000000000000000000000000000000000000000000000000000, 12618970664400000000000000000000000000000000000000000000000000000000000000000000000000000000, 12617665067300000000000000000000000000000000000000000000000000000000000000000000000000000000, 12616368538200000000000000000000000000000000000000000000000000000000000000000000000000000000, 12615080614400000000000000000000000000000000000000000000000000000000000000000000000000000000, 12613800860300000000000000000000000000000000000000000000000000000000000000000000000000000000, 12612528866300000000000000000000000000000000000000000000000000000000000000000000000000000000, 12611264247600000000000000000000000000000000000000000000000000000000000000000000000000000000, 12610006642800000000000000000000000000000000000000000000000000000000000000000000000000000000, 12608755712500000000000000000000000000000000000000000000000000000000000000000000000000000000, 12607511137600000000000000000000000000000000000000000000000000000000000000000000000000000000, 12606272618200000000000000000000000000000000000000000000000000000000000000000000000000000000, 12605039871900000000000000000000000000000000000000000000000000000000000000000000000000000000, 12603812632900000000000000000000000000000000000000000000000000000000000000000000000000000000, 12602590650900000000000000000000000000000000000000000000000000000000000000000000000000000000, 12601373689300000000000000000000000000000000000000000000000000000000000000000000000000000000, 12600161525100000000000000000000000000000000000000000000000000000000000000000000000000000000]),
  (538726052104000, [12640017761500000000000000000000000000000000000000000000000000000000000000000000000000000000, 12637454847600000000000000000000000000000000000000000000000000000000000000000000000000000000, 12636556247200000000000000000000000000000000000000000000000000000000000000000000000000000000, 12635658913900000000000000000000000000000000000000000000000000000000000000000000000000000000, 12634554820500000000000000000000000000000000000000000000000000000000000000000000000000000000, 12633283999600000000000000000000000000000000000000000000000000000000000000000000000000000000, 12631906765800000000000000000000000000000000000000000000000000000000000000000000000000000000, 12630468483200000000000000000000000000000000000000000000000000000000000000000000000000000000, 12628999077500000000000000000000000000000000000000000000000000000000000000000000000000000000, 12627517399500000000000000000000000000000000000000000000000000000000000000000000000000000000, 12626035038700000000000000000000000000000000000000000000000000000000000000000000000000000000, 12624558968100000000000000000000000000000000000000000000000000000000000000000000000000000000, 12623093257600000000000000000000000000000000000000000000000000000000000000000000000000000000, 12621640159400000000000000000000000000000000000000000000000000000000000000000000000000000000, 12620200790300000000000000000000000000000000000000000000000000000000000000000000000000000000, 12618775560500000000000000000000000000000000000000000000000000000000000000000000000000000000, 12617364444500000000000000000000000000000000000000000000000000000000000000000000000000000000, 12615967152600000000000000000000000000000000000000000000000000000000000000000000000000000000, 12614583240500000000000000000000000000000000000000000000000000000000000000000000000000000000, 12613212178700000000000000000000000000000000000000000000000000000000000000000000000000000000, 12611853397100000000000000000000000000000000000000000000000000000000000000000000000000000000, 12610506313000000000000000000000000000000000000000000000000000000000000000000000000000000000, 12609170349100000000000000000000000000000000000000000000000000000000000000000000000000000000, 12607844944000000000000000000000000000000000000000000000000000000000000000000000000000000000, 12606529558400000000000000000000000000000000000000000000000000000000000000000000000000000000, 12605223678900000000000000000000000000000000000000000000000000000000000000000000000000000000, 12603926819000000000000000000000000000000000000000000000000000000000000000000000000000000000, 12602638519500000000000000000000000000000000000000000000000000000000000000000000000000000000, 12601358348100000000000000000000000000000000000000000000000000000000000000000000000000000000, 12600085898300000000000000000000000000000000000000000000000000000000000000000000000000000000, 12598820788100000000000000000000000000000000000000000000000000000000000000000000000000000000, 12597562658900000000000000000000000000000000000000000000000000000000000000000000000000000000, 12596311173300000000000000000000000000000000000000000000000000000000000000000000000000000000, 12595066014800000000000000000000000000000000000000000000000000000000000000000000000000000000, 12593826885300000000000000000000000000000000000000000000000000000000000000000000000000000000, 12592593504700000000000000000000000000000000000000000000000000000000000000000000000000000000, 12591365608800000000000000000000000000000000000000000000000000000000000000000000000000000000, 12590142948800000000000000000000000000000000000000000000000000000000000000000000000000000000, 12588925290100000000000000000000000000000000000000000000000000000000000000000000000000000000, 12587712411000000000000000000000000000000000000000000000000000000000000000000000000000000000]),
  (540830060120000, [12627404586200000000000000000000000000000000000000000000000000000000000000000000000000000000, 12624848894100000000000000000000000000000000000000000000000000000000000000000000000000000000, 12623954297800000000000000000000000000000000000000000000000000000000000000000000000000000000, 12623059925600000000000000000000000000000000000000000000000000000000000000000000000000000000, 12621958150600000000000000000000000000000000000000000000000000000000000000000000000000000000, 12620689250300000000000000000000000000000000000000000000000000000000000000000000000000000000, 12619313697200000000000000000000000000000000000000000000000000000000000000000000000000000000, 12617876931700000000000000000000000000000000000000000000000000000000000000000000000000000000, 12616408907300000000000000000000000000000000000000000000000000000000000000000000000000000000, 12614928480700000000000000000000000000000000000000000000000000000000000000000000000000000000, 12613447240500000000000000000000000000000000000000000000000000000000000000000000000000000000, 12611972158500000000000000000000000000000000000000000000000000000000000000000000000000000000, 12610507305800000000000000000000000000000000000000000000000000000000000000000000000000000000, 12609054937700000000000000000000000000000000000000000000000000000000000000000000000000000000, 12607616176400000000000000000000000000000000000000000000000000000000000000000000000000000000, 12606191438500000000000000000000000000000000000000000000000000000000000000000000000000000000, 12604780705500000000000000000000000000000000000000000000000000000000000000000000000000000000, 12603383695200000000000000000000000000000000000000000000000000000000000000000000000000000000, 12601999970500000000000000000000000000000000000000000000000000000000000000000000000000000000, 12600629008800000000000000000000000000000000000000000000000000000000000000000000000000000000, 12599270246700000000000000000000000000000000000000000000000000000000000000000000000000000000, 12597923107600000000000000000000000000000000000000000000000000000000000000000000000000000000, 12596587019900000000000000000000000000000000000000000000000000000000000000000000000000000000, 12595261427500000000000000000000000000000000000000000000000000000000000000000000000000000000, 12593945795800000000000000000000000000000000000000000000000000000000000000000000000000000000, 12592639615800000000000000000000000000000000000000000000000000000000000000000000000000000000, 12591342405100000000000000000000000000000000000000000000000000000000000000000000000000000000, 12590053708100000000000000000000000000000000000000000000000000000000000000000000000000000000, 12588773096000000000000000000000000000000000000000000000000000000000000000000000000000000000, 12587500165400000000000000000000000000000000000000000000000000000000000000000000000000000000, 12586234537200000000000000000000000000000000000000000000000000000000000000000000000000000000, 12584975855300000000000000000000000000000000000000000000000000000000000000000000000000000000, 12583723785100000000000000000000000000000000000000000000000000000000000000000000000000000000, 12582478012000000000000000000000000000000000000000000000000000000000000000000000000000000000, 12581238240400000000000000000000000000000000000000000000000000000000000000000000000000000000, 12580004191800000000000000000000000000000000000000000000000000000000000000000000000000000000, 12578775604200000000000000000000000000000000000000000000000000000000000000000000000000000000, 12577552230500000000000000000000000000000000000000000000000000000000000000000000000000000000, 12576333837500000000000000000000000000000000000000000000000000000000000000000000000000000000, 12575120205100000000000000000000000000000000000000000000000000000000000000000000000000000000]),
  (542934068136000, [12614643077600000000000000000000000000000000000000000000000000000000000000000000000000000000, 12612093498700000000000000000000000000000000000000000000000000000000000000000000000000000000, 12611202499600000000000000000000000000000000000000000000000000000000000000000000000000000000, 12610310749300000000000000000000000000000000000000000000000000000000000000000000000000000000, 12609211091100000000000000000000000000000000000000000000000000000000000000000000000000000000, 12607944048800000000000000000000000000000000000000000000000000000000000000000000000000000000, 12606570204800000000000000000000000000000000000000000000000000000000000000000000000000000000, 12605135031000000000000000000000000000000000000000000000000000000000000000000000000000000000, 12603668478400000000000000000000000000000000000000000000000000000000000000000000000000000000, 12602189393200000000000000000000000000000000000000000000000000000000000000000000000000000000, 12600709355500000000000000000000000000000000000000000000000000000000000000000000000000000000, 12599235333100000000000000000000000000000000000000000000000000000000000000000000000000000000, 12597771397800000000000000000000000000000000000000000000000000000000000000000000000000000000, 12596319809500000000000000000000000000000000000000000000000000000000000000000000000000000000, 12594881696400000000000000000000000000000000000000000000000000000000000000000000000000000000, 12593457483100000000000000000000000000000000000000000000000000000000000000000000000000000000, 12592047159500000000000000000000000000000000000000000000000000000000000000000000000000000000, 12590650451600000000000000000000000000000000000000000000000000000000000000000000000000000000, 12589266930500000000000000000000000000000000000000000000000000000000000000000000000000000000, 12587896081300000000000000000000000000000000000000000000000000000000000000000000000000000000, 12586537347600000000000000000000000000000000000000000000000000000000000000000000000000000000, 12585190159500000000000000000000000000000000000000000000000000000000000000000000000000000000, 12583853951300000000000000000000000000000000000000000000000000000000000000000000000000000000, 12582528172300000000000000000000000000000000000000000000000000000000000000000000000000000000, 12581212293200000000000000000000000000000000000000000000000000000000000000000000000000000000, 12579905809400000000000000000000000000000000000000000000000000000000000000000000000000000000, 12578608242500000000000000000000000000000000000000000000000000000000000000000000000000000000, 12577319141000000000000000000000000000000000000000000000000000000000000000000000000000000000, 12576038079400000000000000000000000000000000000000000000000000000000000000000000000000000000, 12574764657600000000000000000000000000000000000000000000000000000000000000000000000000000000, 12573498499400000000000000000000000000000000000000000000000000000000000000000000000000000000, 12572239251300000000000000000000000000000000000000000000000000000000000000000000000000000000, 12570986581400000000000000000000000000000000000000000000000000000000000000000000000000000000, 12569740177400000000000000000000000000000000000000000000000000000000000000000000000000000000, 12568499745800000000000000000000000000000000000000000000000000000000000000000000000000000000, 12567265010200000000000000000000000000000000000000000000000000000000000000000000000000000000, 12566035710400000000000000000000000000000000000000000000000000000000000000000000000000000000, 12564811601100000000000000000000000000000000000000000000000000000000000000000000000000000000, 12563592450900000000000000000000000000000000000000000000000000000000000000000000000000000000, 12562378041100000000000000000000000000000000000000000000000000000000000000000000000000000000]),
  (545038076152000, [12601726614300000000000000000000000000000000000000000000000000000000000000000000000000000000, 12599181156700000000000000000000000000000000000000000000000000000000000000000000000000000000, 12598292863800000000000000000000000000000000000000000000000000000000000000000000000000000000, 12597403312800000000000000000000000000000000000000000000000000000000000000000000000000000000, 12596305650500000000000000000000000000000000000000000000000000000000000000000000000000000000, 12595040520400000000000000000000000000000000000000000000000000000000000000000000000000000000, 12593668520000000000000000000000000000000000000000000000000000000000000000000000000000000000, 12592235095300000000000000000000000000000000000000000000000000000000000000000000000000000000, 12590770166900000000000000000000000000000000000000000000000000000000000000000000000000000000, 12589292558900000000000000000000000000000000000000000000000000000000000000000000000000000000, 12587813840000000000000000000000000000000000000000000000000000000000000000000000000000000000, 12586340975200000000000000000000000000000000000000000000000000000000000000000000000000000000, 12584878039600000000000000000000000000000000000000000000000000000000000000000000000000000000, 12583427299700000000000000000000000000000000000000000000000000000000000000000000000000000000, 12581989893200000000000000000000000000000000000000000000000000000000000000000000000000000000, 12580566254100000000000000000000000000000000000000000000000000000000000000000000000000000000, 12579156382500000000000000000000000000000000000000000000000000000000000000000000000000000000, 12577760014000000000000000000000000000000000000000000000000000000000000000000000000000000000, 12576376728700000000000000000000000000000000000000000000000000000000000000000000000000000000, 12575006020200000000000000000000000000000000000000000000000000000000000000000000000000000000, 12573647339700000000000000000000000000000000000000000000000000000000000000000000000000000000, 12572300124400000000000000000000000000000000000000000000000000000000000000000000000000000000, 12570963814900000000000000000000000000000000000000000000000000000000000000000000000000000000, 12569637866100000000000000000000000000000000000000000000000000000000000000000000000000000000, 12568321754000000000000000000000000000000000000000000000000000000000000000000000000000000000, 12567014978700000000000000000000000000000000000000000000000000000000000000000000000000000000, 12565717066000000000000000000000000000000000000000000000000000000000000000000000000000000000, 12564427568500000000000000000000000000000000000000000000000000000000000000000000000000000000, 12563146064000000000000000000000000000000000000000000000000000000000000000000000000000000000, 12561872155900000000000000000000000000000000000000000000000000000000000000000000000000000000, 12560605470800000000000000000000000000000000000000000000000000000000000000000000000000000000, 12559345658300000000000000000000000000000000000000000000000000000000000000000000000000000000, 12558092388700000000000000000000000000000000000000000000000000000000000000000000000000000000, 12556845352300000000000000000000000000000000000000000000000000000000000000000000000000000000, 12555604257800000000000000000000000000000000000000000000000000000000000000000000000000000000, 12554368830800000000000000000000000000000000000000000000000000000000000000000000000000000000, 12553138813100000000000000000000000000000000000000000000000000000000000000000000000000000000, 12551913961100000000000000000000000000000000000000000000000000000000000000000000000000000000, 12550694045200000000000000000000000000000000000000000000000000000000000000000000000000000000, 12549478848200000000000000000000000000000000000000000000000000000000000000000000000000000000]),
  (547142084168000, [12588646727300000000000000000000000000000000000000000000000000000000000000000000000000000000, 12586103611400000000000000000000000000000000000000000000000000000000000000000000000000000000, 12585216911500000000000000000000000000000000000000000000000000000000000000000000000000000000, 12584329192800000000000000000000000000000000000000000000000000000000000000000000000000000000, 12583233569400000000000000000000000000000000000000000000000000000000000000000000000000000000, 12581970566500000000000000000000000000000000000000000000000000000000000000000000000000000000, 12580600667800000000000000000000000000000000000000000000000000000000000000000000000000000000, 12579169236700000000000000000000000000000000000000000000000000000000000000000000000000000000, 12577706144500000000000000000000000000000000000000000000000000000000000000000000000000000000, 12576230191200000000000000000000000000000000000000000000000000000000000000000000000000000000, 12574752938200000000000000000000000000000000000000000000000000000000000000000000000000000000, 12573281353300000000000000000000000000000000000000000000000000000000000000000000000000000000, 12571819520000000000000000000000000000000000000000000000000000000000000000000000000000000000, 12570369716500000000000000000000000000000000000000000000000000000000000000000000000000000000, 12568933092600000000000000000000000000000000000000000000000000000000000000000000000000000000, 12567510094900000000000000000000000000000000000000000000000000000000000000000000000000000000, 12566100735300000000000000000000000000000000000000000000000000000000000000000000000000000000, 12564704760500000000000000000000000000000000000000000000000000000000000000000000000000000000, 12563321760700000000000000000000000000000000000000000000000000000000000000000000000000000000, 12561951238600000000000000000000000000000000000000000000000000000000000000000000000000000000, 12560592653500000000000000000000000000000000000000000000000000000000000000000000000000000000, 12559245450100000000000000000000000000000000000000000000000000000000000000000000000000000000, 12557909075500000000000000000000000000000000000000000000000000000000000000000000000000000000, 12556582990700000000000000000000000000000000000000000000000000000000000000000000000000000000, 12555266676900000000000000000000000000000000000000000000000000000000000000000000000000000000, 12553959639100000000000000000000000000000000000000000000000000000000000000000000000000000000, 12552661407700000000000000000000000000000000000000000000000000000000000000000000000000000000, 12551371538900000000000000000000000000000000000000000000000000000000000000000000000000000000, 12550089614500000000000000000000000000000000000000000000000000000000000000000000000000000000, 12548815241000000000000000000000000000000000000000000000000000000000000000000000000000000000, 12547548048300000000000000000000000000000000000000000000000000000000000000000000000000000000, 12546287688600000000000000000000000000000000000000000000000000000000000000000000000000000000, 12545033835000000000000000000000000000000000000000000000000000000000000000000000000000000000, 12543786180200000000000000000000000000000000000000000000000000000000000000000000000000000000, 12542544435100000000000000000000000000000000000000000000000000000000000000000000000000000000, 12541308327400000000000000000000000000000000000000000000000000000000000000000000000000000000, 12540077601000000000000000000000000000000000000000000000000000000000000000000000000000000000, 12538852014100000000000000000000000000000000000000000000000000000000000000000000000000000000, 12537631338700000000000000000000000000000000000000000000000000000000000000000000000000000000, 12536415359400000000000000000000000000000000000000000000000000000000000000000000000000000000]),
  (549246092184000, [12575393818900000000000000000000000000000000000000000000000000000000000000000000000000000000, 12572851827000000000000000000000000000000000000000000000000000000000000000000000000000000000, 12571965894700000000000000000000000000000000000000000000000000000000000000000000000000000000, 12571079850800000000000000000000000000000000000000000000000000000000000000000000000000000000, 12569986490600000000000000000000000000000000000000000000000000000000000000000000000000000000, 12568725970000000000000000000000000000000000000000000000000000000000000000000000000000000000, 12567358528800000000000000000000000000000000000000000000000000000000000000000000000000000000, 12565929400700000000000000000000000000000000000000000000000000000000000000000000000000000000, 12564468400000000000000000000000000000000000000000000000000000000000000000000000000000000000, 12562994309400000000000000000000000000000000000000000000000000000000000000000000000000000000, 12561518692800000000000000000000000000000000000000000000000000000000000000000000000000000000, 12560048530200000000000000000000000000000000000000000000000000000000000000000000000000000000, 12558587920900000000000000000000000000000000000000000000000000000000000000000000000000000000, 12557139159800000000000000000000000000000000000000000000000000000000000000000000000000000000, 12555703413000000000000000000000000000000000000000000000000000000000000000000000000000000000, 12554281142500000000000000000000000000000000000000000000000000000000000000000000000000000000, 12552872373700000000000000000000000000000000000000000000000000000000000000000000000000000000, 12551476865800000000000000000000000000000000000000000000000000000000000000000000000000000000, 12550094220000000000000000000000000000000000000000000000000000000000000000000000000000000000, 12548723948700000000000000000000000000000000000000000000000000000000000000000000000000000000, 12547365520000000000000000000000000000000000000000000000000000000000000000000000000000000000, 12546018386100000000000000000000000000000000000000000000000000000000000000000000000000000000, 12544682001100000000000000000000000000000000000000000000000000000000000000000000000000000000, 12543355832200000000000000000000000000000000000000000000000000000000000000000000000000000000, 12542039366000000000000000000000000000000000000000000000000000000000000000000000000000000000, 12540732112500000000000000000000000000000000000000000000000000000000000000000000000000000000, 12539433606500000000000000000000000000000000000000000000000000000000000000000000000000000000, 12538143408500000000000000000000000000000000000000000000000000000000000000000000000000000000, 12536861104000000000000000000000000000000000000000000000000000000000000000000000000000000000, 12535586302700000000000000000000000000000000000000000000000000000000000000000000000000000000, 12534318637900000000000000000000000000000000000000000000000000000000000000000000000000000000, 12533057764600000000000000000000000000000000000000000000000000000000000000000000000000000000, 12531803358600000000000000000000000000000000000000000000000000000000000000000000000000000000, 12530555115100000000000000000000000000000000000000000000000000000000000000000000000000000000, 12529312747300000000000000000000000000000000000000000000000000000000000000000000000000000000, 12528075985200000000000000000000000000000000000000000000000000000000000000000000000000000000, 12526844574500000000000000000000000000000000000000000000000000000000000000000000000000000000, 12525618275400000000000000000000000000000000000000000000000000000000000000000000000000000000, 12524396861700000000000000000000000000000000000000000000000000000000000000000000000000000000, 12523180119800000000000000000000000000000000000000000000000000000000000000000000000000000000]),
  (551350100200000, [12561956972900000000000000000000000000000000000000000000000000000000000000000000000000000000, 12559416268700000000000000000000000000000000000000000000000000000000000000000000000000000000, 12558531042800000000000000000000000000000000000000000000000000000000000000000000000000000000, 12557646813700000000000000000000000000000000000000000000000000000000000000000000000000000000, 12556556078300000000000000000000000000000000000000000000000000000000000000000000000000000000, 12555298468000000000000000000000000000000000000000000000000000000000000000000000000000000000, 12553933881700000000000000000000000000000000000000000000000000000000000000000000000000000000, 12552507391500000000000000000000000000000000000000000000000000000000000000000000000000000000, 12551048755600000000000000000000000000000000000000000000000000000000000000000000000000000000, 12549576750700000000000000000000000000000000000000000000000000000000000000000000000000000000, 12548102956100000000000000000000000000000000000000000000000000000000000000000000000000000000, 12546634374000000000000000000000000000000000000000000000000000000000000000000000000000000000, 12545175127300000000000000000000000000000000000000000000000000000000000000000000000000000000, 12543727532800000000000000000000000000000000000000000000000000000000000000000000000000000000, 12542292776900000000000000000000000000000000000000000000000000000000000000000000000000000000, 12540871338900000000000000000000000000000000000000000000000000000000000000000000000000000000, 12539463259900000000000000000000000000000000000000000000000000000000000000000000000000000000, 12538068312500000000000000000000000000000000000000000000000000000000000000000000000000000000, 12536686109500000000000000000000000000000000000000000000000000000000000000000000000000000000, 12535316173800000000000000000000000000000000000000000000000000000000000000000000000000000000, 12533957982300000000000000000000000000000000000000000000000000000000000000000000000000000000, 12532610995400000000000000000000000000000000000000000000000000000000000000000000000000000000, 12531274674200000000000000000000000000000000000000000000000000000000000000000000000000000000, 12529948492000000000000000000000000000000000000000000000000000000000000000000000000000000000, 12528631941400000000000000000000000000000000000000000000000000000000000000000000000000000000, 12527324537200000000000000000000000000000000000000000000000000000000000000000000000000000000, 12526025819000000000000000000000000000000000000000000000000000000000000000000000000000000000, 12524735351500000000000000000000000000000000000000000000000000000000000000000000000000000000, 12523452723800000000000000000000000000000000000000000000000000000000000000000000000000000000, 12522177549500000000000000000000000000000000000000000000000000000000000000000000000000000000, 12520909464900000000000000000000000000000000000000000000000000000000000000000000000000000000, 12519648128000000000000000000000000000000000000000000000000000000000000000000000000000000000, 12518393217500000000000000000000000000000000000000000000000000000000000000000000000000000000, 12517144431000000000000000000000000000000000000000000000000000000000000000000000000000000000, 12515901484200000000000000000000000000000000000000000000000000000000000000000000000000000000, 12514664109300000000000000000000000000000000000000000000000000000000000000000000000000000000, 12513432054200000000000000000000000000000000000000000000000000000000000000000000000000000000, 12512205081000000000000000000000000000000000000000000000000000000000000000000000000000000000, 12510982965400000000000000000000000000000000000000000000000000000000000000000000000000000000, 12509765495300000000000000000000000000000000000000000000000000000000000000000000000000000000]),
  (553454108216000, [12548323922300000000000000000000000000000000000000000000000000000000000000000000000000000000, 12545787356800000000000000000000000000000000000000000000000000000000000000000000000000000000, 12544903685700000000000000000000000000000000000000000000000000000000000000000000000000000000, 12544021706300000000000000000000000000000000000000000000000000000000000000000000000000000000, 12542934030900000000000000000000000000000000000000000000000000000000000000000000000000000000, 12541679759500000000000000000000000000000000000000000000000000000000000000000000000000000000, 12540318409200000000000000000000000000000000000000000000000000000000000000000000000000000000, 12538894878200000000000000000000000000000000000000000000000000000000000000000000000000000000, 12537438874000000000000000000000000000000000000000000000000000000000000000000000000000000000, 12535969179400000000000000000000000000000000000000000000000000000000000000000000000000000000, 12534497400200000000000000000000000000000000000000000000000000000000000000000000000000000000, 12533030569600000000000000000000000000000000000000000000000000000000000000000000000000000000, 12531572840300000000000000000000000000000000000000000000000000000000000000000000000000000000, 12530126555500000000000000000000000000000000000000000000000000000000000000000000000000000000, 12528692924300000000000000000000000000000000000000000000000000000000000000000000000000000000, 12527272445600000000000000000000000000000000000000000000000000000000000000000000000000000000, 12525865176900000000000000000000000000000000000000000000000000000000000000000000000000000000, 12524470905200000000000000000000000000000000000000000000000000000000000000000000000000000000, 12523089255500000000000000000000000000000000000000000000000000000000000000000000000000000000, 12521719761300000000000000000000000000000000000000000000000000000000000000000000000000000000, 12520361909000000000000000000000000000000000000000000000000000000000000000000000000000000000, 12519015166900000000000000000000000000000000000000000000000000000000000000000000000000000000, 12517679003500000000000000000000000000000000000000000000000000000000000000000000000000000000, 12516352898700000000000000000000000000000000000000000000000000000000000000000000000000000000, 12515036350700000000000000000000000000000000000000000000000000000000000000000000000000000000, 12513728879700000000000000000000000000000000000000000000000000000000000000000000000000000000, 12512430030000000000000000000000000000000000000000000000000000000000000000000000000000000000, 12511139370400000000000000000000000000000000000000000000000000000000000000000000000000000000, 12509856494400000000000000000000000000000000000000000000000000000000000000000000000000000000, 12508581018900000000000000000000000000000000000000000000000000000000000000000000000000000000, 12507312583700000000000000000000000000000000000000000000000000000000000000000000000000000000, 12506050849900000000000000000000000000000000000000000000000000000000000000000000000000000000, 12504795499000000000000000000000000000000000000000000000000000000000000000000000000000000000, 12503546231300000000000000000000000000000000000000000000000000000000000000000000000000000000, 12502302765100000000000000000000000000000000000000000000000000000000000000000000000000000000, 12501064834800000000000000000000000000000000000000000000000000000000000000000000000000000000, 12499832190500000000000000000000000000000000000000000000000000000000000000000000000000000000, 12498604596400000000000000000000000000000000000000000000000000000000000000000000000000000000, 12497381830000000000000000000000000000000000000000000000000000000000000000000000000000000000, 12496163681300000000000000000000000000000000000000000000000000000000000000000000000000000000]),
  (555558116232000, [12534484013400000000000000000000000000000000000000000000000000000000000000000000000000000000, 12531955923900000000000000000000000000000000000000000000000000000000000000000000000000000000, 12531075207100000000000000000000000000000000000000000000000000000000000000000000000000000000, 12530196141800000000000000000000000000000000000000000000000000000000000000000000000000000000, 12529111997000000000000000000000000000000000000000000000000000000000000000000000000000000000, 12527861454300000000000000000000000000000000000000000000000000000000000000000000000000000000, 12526503671800000000000000000000000000000000000000000000000000000000000000000000000000000000, 12525083384100000000000000000000000000000000000000000000000000000000000000000000000000000000, 12523630258700000000000000000000000000000000000000000000000000000000000000000000000000000000, 12522163093500000000000000000000000000000000000000000000000000000000000000000000000000000000, 12520693528100000000000000000000000000000000000000000000000000000000000000000000000000000000, 12519228632400000000000000000000000000000000000000000000000000000000000000000000000000000000, 12517772592500000000000000000000000000000000000000000000000000000000000000000000000000000000, 12516327780500000000000000000000000000000000000000000000000000000000000000000000000000000000, 12514895429600000000000000000000000000000000000000000000000000000000000000000000000000000000, 12513476059200000000000000000000000000000000000000000000000000000000000000000000000000000000, 12512069744100000000000000000000000000000000000000000000000000000000000000000000000000000000, 12510676285900000000000000000000000000000000000000000000000000000000000000000000000000000000, 12509295322200000000000000000000000000000000000000000000000000000000000000000000000000000000, 12507926397400000000000000000000000000000000000000000000000000000000000000000000000000000000, 12506569007300000000000000000000000000000000000000000000000000000000000000000000000000000000, 12505222628800000000000000000000000000000000000000000000000000000000000000000000000000000000, 12503886737700000000000000000000000000000000000000000000000000000000000000000000000000000000, 12502560820500000000000000000000000000000000000000000000000000000000000000000000000000000000, 12501244381400000000000000000000000000000000000000000000000000000000000000000000000000000000, 12499936946000000000000000000000000000000000000000000000000000000000000000000000000000000000, 12498638063700000000000000000000000000000000000000000000000000000000000000000000000000000000, 12497347307600000000000000000000000000000000000000000000000000000000000000000000000000000000, 12496064275400000000000000000000000000000000000000000000000000000000000000000000000000000000, 12494788587800000000000000000000000000000000000000000000000000000000000000000000000000000000, 12493519887900000000000000000000000000000000000000000000000000000000000000000000000000000000, 12492257840300000000000000000000000000000000000000000000000000000000000000000000000000000000, 12491002129300000000000000000000000000000000000000000000000000000000000000000000000000000000, 12489752458200000000000000000000000000000000000000000000000000000000000000000000000000000000, 12488508547700000000000000000000000000000000000000000000000000000000000000000000000000000000, 12487270134900000000000000000000000000000000000000000000000000000000000000000000000000000000, 12486036971800000000000000000000000000000000000000000000000000000000000000000000000000000000, 12484808825100000000000000000000000000000000000000000000000000000000000000000000000000000000, 12483585474100000000000000000000000000000000000000000000000000000000000000000000000000000000, 12482366710800000000000000000000000000000000000000000000000000000000000000000000000000000000]),
  (557662124248000, [12520430649300000000000000000000000000000000000000000000000000000000000000000000000000000000, 12517913304500000000000000000000000000000000000000000000000000000000000000000000000000000000, 12517036894700000000000000000000000000000000000000000000000000000000000000000000000000000000, 12516161562600000000000000000000000000000000000000000000000000000000000000000000000000000000, 12515081457300000000000000000000000000000000000000000000000000000000000000000000000000000000, 12513834998900000000000000000000000000000000000000000000000000000000000000000000000000000000, 12512481067800000000000000000000000000000000000000000000000000000000000000000000000000000000, 12511064271700000000000000000000000000000000000000000000000000000000000000000000000000000000, 12509614253200000000000000000000000000000000000000000000000000000000000000000000000000000000, 12508149832800000000000000000000000000000000000000000000000000000000000000000000000000000000, 12506682687100000000000000000000000000000000000000000000000000000000000000000000000000000000, 12505219924500000000000000000000000000000000000000000000000000000000000000000000000000000000, 12503765765200000000000000000000000000000000000000000000000000000000000000000000000000000000, 12502322610600000000000000000000000000000000000000000000000000000000000000000000000000000000, 12500891718400000000000000000000000000000000000000000000000000000000000000000000000000000000, 12499473628800000000000000000000000000000000000000000000000000000000000000000000000000000000, 12498068433800000000000000000000000000000000000000000000000000000000000000000000000000000000, 12496675949800000000000000000000000000000000000000000000000000000000000000000000000000000000, 12495295827200000000000000000000000000000000000000000000000000000000000000000000000000000000, 12493927621300000000000000000000000000000000000000000000000000000000000000000000000000000000, 12492570837800000000000000000000000000000000000000000000000000000000000000000000000000000000, 12491224962000000000000000000000000000000000000000000000000000000000000000000000000000000000, 12489889477400000000000000000000000000000000000000000000000000000000000000000000000000000000, 12488563877400000000000000000000000000000000000000000000000000000000000000000000000000000000, 12487247672300000000000000000000000000000000000000000000000000000000000000000000000000000000, 12485940393500000000000000000000000000000000000000000000000000000000000000000000000000000000, 12484641595300000000000000000000000000000000000000000000000000000000000000000000000000000000, 12483350855700000000000000000000000000000000000000000000000000000000000000000000000000000000, 12482067776500000000000000000000000000000000000000000000000000000000000000000000000000000000, 12480791982400000000000000000000000000000000000000000000000000000000000000000000000000000000, 12479523120400000000000000000000000000000000000000000000000000000000000000000000000000000000, 12478260858100000000000000000000000000000000000000000000000000000000000000000000000000000000, 12477004883400000000000000000000000000000000000000000000000000000000000000000000000000000000, 12475754902200000000000000000000000000000000000000000000000000000000000000000000000000000000, 12474510638000000000000000000000000000000000000000000000000000000000000000000000000000000000, 12473271830400000000000000000000000000000000000000000000000000000000000000000000000000000000, 12472038234100000000000000000000000000000000000000000000000000000000000000000000000000000000, 12470809617700000000000000000000000000000000000000000000000000000000000000000000000000000000, 12469585762900000000000000000000000000000000000000000000000000000000000000000000000000000000, 12468366463500000000000000000000000000000000000000000000000000000000000000000000000000000000]),
  (559766132265000, [12506158558500000000000000000000000000000000000000000000000000000000000000000000000000000000, 12503650883600000000000000000000000000000000000000000000000000000000000000000000000000000000, 12502779805700000000000000000000000000000000000000000000000000000000000000000000000000000000, 12501909136400000000000000000000000000000000000000000000000000000000000000000000000000000000, 12500833642100000000000000000000000000000000000000000000000000000000000000000000000000000000, 12499591623800000000000000000000000000000000000000000000000000000000000000000000000000000000, 12498241807700000000000000000000000000000000000000000000000000000000000000000000000000000000, 12496828734800000000000000000000000000000000000000000000000000000000000000000000000000000000, 12495382046600000000000000000000000000000000000000000000000000000000000000000000000000000000, 12493920592200000000000000000000000000000000000000000000000000000000000000000000000000000000, 12492456085900000000000000000000000000000000000000000000000000000000000000000000000000000000, 12490995673300000000000000000000000000000000000000000000000000000000000000000000000000000000, 12489543607400000000000000000000000000000000000000000000000000000000000000000000000000000000, 12488102318000000000000000000000000000000000000000000000000000000000000000000000000000000000, 12486673086700000000000000000000000000000000000000000000000000000000000000000000000000000000, 12485256473600000000000000000000000000000000000000000000000000000000000000000000000000000000, 12483852588100000000000000000000000000000000000000000000000000000000000000000000000000000000, 12482461261300000000000000000000000000000000000000000000000000000000000000000000000000000000, 12481082156400000000000000000000000000000000000000000000000000000000000000000000000000000000, 12479714840000000000000000000000000000000000000000000000000000000000000000000000000000000000, 12478358827500000000000000000000000000000000000000000000000000000000000000000000000000000000, 12477013613200000000000000000000000000000000000000000000000000000000000000000000000000000000, 12475678688400000000000000000000000000000000000000000000000000000000000000000000000000000000, 12474353553600000000000000000000000000000000000000000000000000000000000000000000000000000000, 12473037725700000000000000000000000000000000000000000000000000000000000000000000000000000000, 12471730741800000000000000000000000000000000000000000000000000000000000000000000000000000000, 12470432161600000000000000000000000000000000000000000000000000000000000000000000000000000000, 12469141568100000000000000000000000000000000000000000000000000000000000000000000000000000000, 12467858567500000000000000000000000000000000000000000000000000000000000000000000000000000000, 12466582788800000000000000000000000000000000000000000000000000000000000000000000000000000000, 12465313882700000000000000000000000000000000000000000000000000000000000000000000000000000000, 12464051520700000000000000000000000000000000000000000000000000000000000000000000000000000000, 12462795393600000000000000000000000000000000000000000000000000000000000000000000000000000000, 12461545210700000000000000000000000000000000000000000000000000000000000000000000000000000000, 12460300698200000000000000000000000000000000000000000000000000000000000000000000000000000000, 12459061598600000000000000000000000000000000000000000000000000000000000000000000000000000000, 12457827669000000000000000000000000000000000000000000000000000000000000000000000000000000000, 12456598680400000000000000000000000000000000000000000000000000000000000000000000000000000000, 12455374416700000000000000000000000000000000000000000000000000000000000000000000000000000000, 12454154673800000000000000000000000000000000000000000000000000000000000000000000000000000000]),
  (561870140281000, [12491659336000000000000000000000000000000000000000000000000000000000000000000000000000000000, 12489159545000000000000000000000000000000000000000000000000000000000000000000000000000000000, 12488294736500000000000000000000000000000000000000000000000000000000000000000000000000000000, 12487429758300000000000000000000000000000000000000000000000000000000000000000000000000000000, 12486359524100000000000000000000000000000000000000000000000000000000000000000000000000000000, 12485122338000000000000000000000000000000000000000000000000000000000000000000000000000000000, 12483776916200000000000000000000000000000000000000000000000000000000000000000000000000000000, 12482367810200000000000000000000000000000000000000000000000000000000000000000000000000000000, 12480924689900000000000000000000000000000000000000000000000000000000000000000000000000000000, 12479466441000000000000000000000000000000000000000000000000000000000000000000000000000000000, 12478004815100000000000000000000000000000000000000000000000000000000000000000000000000000000, 12476546992400000000000000000000000000000000000000000000000000000000000000000000000000000000, 12475097256500000000000000000000000000000000000000000000000000000000000000000000000000000000, 12473658063600000000000000000000000000000000000000000000000000000000000000000000000000000000, 12472230718200000000000000000000000000000000000000000000000000000000000000000000000000000000, 12470815799800000000000000000000000000000000000000000000000000000000000000000000000000000000, 12469413434900000000000000000000000000000000000000000000000000000000000000000000000000000000, 12468023469100000000000000000000000000000000000000000000000000000000000000000000000000000000, 12466645578600000000000000000000000000000000000000000000000000000000000000000000000000000000, 12465279341400000000000000000000000000000000000000000000000000000000000000000000000000000000, 12463924283100000000000000000000000000000000000000000000000000000000000000000000000000000000, 12462579907100000000000000000000000000000000000000000000000000000000000000000000000000000000, 12461245712900000000000000000000000000000000000000000000000000000000000000000000000000000000, 12459921208600000000000000000000000000000000000000000000000000000000000000000000000000000000, 12458605917600000000000000000000000000000000000000000000000000000000000000000000000000000000, 12457299383300000000000000000000000000000000000000000000000000000000000000000000000000000000, 12456001171000000000000000000000000000000000000000000000000000000000000000000000000000000000, 12454710868800000000000000000000000000000000000000000000000000000000000000000000000000000000, 12453428088000000000000000000000000000000000000000000000000000000000000000000000000000000000, 12452152461700000000000000000000000000000000000000000000000000000000000000000000000000000000, 12450883644700000000000000000000000000000000000000000000000000000000000000000000000000000000, 12449621312400000000000000000000000000000000000000000000000000000000000000000000000000000000, 12448365159000000000000000000000000000000000000000000000000000000000000000000000000000000000, 12447114897100000000000000000000000000000000000000000000000000000000000000000000000000000000, 12445870256100000000000000000000000000000000000000000000000000000000000000000000000000000000, 12444630981200000000000000000000000000000000000000000000000000000000000000000000000000000000, 12443396832100000000000000000000000000000000000000000000000000000000000000000000000000000000, 12442167582500000000000000000000000000000000000000000000000000000000000000000000000000000000, 12440943018500000000000000000000000000000000000000000000000000000000000000000000000000000000, 12439722938300000000000000000000000000000000000000000000000000000000000000000000000000000000]),
  (563974148297000, [12476921151100000000000000000000000000000000000000000000000000000000000000000000000000000000, 12474429596700000000000000000000000000000000000000000000000000000000000000000000000000000000, 12473572314300000000000000000000000000000000000000000000000000000000000000000000000000000000, 12472714141300000000000000000000000000000000000000000000000000000000000000000000000000000000, 12471649881900000000000000000000000000000000000000000000000000000000000000000000000000000000, 12470417973600000000000000000000000000000000000000000000000000000000000000000000000000000000, 12469077267800000000000000000000000000000000000000000000000000000000000000000000000000000000, 12467672407400000000000000000000000000000000000000000000000000000000000000000000000000000000, 12466233123700000000000000000000000000000000000000000000000000000000000000000000000000000000, 12464778348000000000000000000000000000000000000000000000000000000000000000000000000000000000, 12463319870100000000000000000000000000000000000000000000000000000000000000000000000000000000, 12461864902300000000000000000000000000000000000000000000000000000000000000000000000000000000, 12460417756600000000000000000000000000000000000000000000000000000000000000000000000000000000, 12458980914100000000000000000000000000000000000000000000000000000000000000000000000000000000, 12457555700900000000000000000000000000000000000000000000000000000000000000000000000000000000, 12456142715700000000000000000000000000000000000000000000000000000000000000000000000000000000, 12454742101500000000000000000000000000000000000000000000000000000000000000000000000000000000, 12453353718900000000000000000000000000000000000000000000000000000000000000000000000000000000, 12451977257200000000000000000000000000000000000000000000000000000000000000000000000000000000, 12450612306100000000000000000000000000000000000000000000000000000000000000000000000000000000, 12449258401800000000000000000000000000000000000000000000000000000000000000000000000000000000, 12447915057100000000000000000000000000000000000000000000000000000000000000000000000000000000, 12446581780200000000000000000000000000000000000000000000000000000000000000000000000000000000, 12445258086800000000000000000000000000000000000000000000000000000000000000000000000000000000, 12443943507600000000000000000000000000000000000000000000000000000000000000000000000000000000, 12442637592400000000000000000000000000000000000000000000000000000000000000000000000000000000, 12441339912500000000000000000000000000000000000000000000000000000000000000000000000000000000, 12440050061600000000000000000000000000000000000000000000000000000000000000000000000000000000, 12438767655700000000000000000000000000000000000000000000000000000000000000000000000000000000, 12437492332900000000000000000000000000000000000000000000000000000000000000000000000000000000, 12436223752200000000000000000000000000000000000000000000000000000000000000000000000000000000, 12434961592900000000000000000000000000000000000000000000000000000000000000000000000000000000, 12433705553000000000000000000000000000000000000000000000000000000000000000000000000000000000, 12432455348600000000000000000000000000000000000000000000000000000000000000000000000000000000, 12431210712200000000000000000000000000000000000000000000000000000000000000000000000000000000, 12429971392100000000000000000000000000000000000000000000000000000000000000000000000000000000, 12428737150800000000000000000000000000000000000000000000000000000000000000000000000000000000, 12427507764500000000000000000000000000000000000000000000000000000000000000000000000000000000, 12426283022100000000000000000000000000000000000000000000000000000000000000000000000000000000, 12425062723800000000000000000000000000000000000000000000000000000000000000000000000000000000]),
  (566078156313000, [12461931788600000000000000000000000000000000000000000000000000000000000000000000000000000000, 12459451221000000000000000000000000000000000000000000000000000000000000000000000000000000000, 12458603166200000000000000000000000000000000000000000000000000000000000000000000000000000000, 12457752948500000000000000000000000000000000000000000000000000000000000000000000000000000000, 12456695401800000000000000000000000000000000000000000000000000000000000000000000000000000000, 12455469260700000000000000000000000000000000000000000000000000000000000000000000000000000000, 12454133641700000000000000000000000000000000000000000000000000000000000000000000000000000000, 12452733350400000000000000000000000000000000000000000000000000000000000000000000000000000000, 12451298210000000000000000000000000000000000000000000000000000000000000000000000000000000000, 12449847207900000000000000000000000000000000000000000000000000000000000000000000000000000000, 12448392173000000000000000000000000000000000000000000000000000000000000000000000000000000000, 12446940349100000000000000000000000000000000000000000000000000000000000000000000000000000000, 12445496075300000000000000000000000000000000000000000000000000000000000000000000000000000000, 12444061856500000000000000000000000000000000000000000000000000000000000000000000000000000000, 12442639039800000000000000000000000000000000000000000000000000000000000000000000000000000000, 12441228242900000000000000000000000000000000000000000000000000000000000000000000000000000000, 12439829625700000000000000000000000000000000000000000000000000000000000000000000000000000000, 12438443063900000000000000000000000000000000000000000000000000000000000000000000000000000000, 12437068260200000000000000000000000000000000000000000000000000000000000000000000000000000000, 12435704816600000000000000000000000000000000000000000000000000000000000000000000000000000000, 12434352280200000000000000000000000000000000000000000000000000000000000000000000000000000000, 12433010173600000000000000000000000000000000000000000000000000000000000000000000000000000000, 12431678014200000000000000000000000000000000000000000000000000000000000000000000000000000000, 12430355325900000000000000000000000000000000000000000000000000000000000000000000000000000000, 12429041646800000000000000000000000000000000000000000000000000000000000000000000000000000000, 12427736533600000000000000000000000000000000000000000000000000000000000000000000000000000000, 12426439563900000000000000000000000000000000000000000000000000000000000000000000000000000000, 12425150337100000000000000000000000000000000000000000000000000000000000000000000000000000000, 12423868474600000000000000000000000000000000000000000000000000000000000000000000000000000000, 12422593619400000000000000000000000000000000000000000000000000000000000000000000000000000000, 12421325435000000000000000000000000000000000000000000000000000000000000000000000000000000000, 12420063604900000000000000000000000000000000000000000000000000000000000000000000000000000000, 12418807831100000000000000000000000000000000000000000000000000000000000000000000000000000000, 12417557833200000000000000000000000000000000000000000000000000000000000000000000000000000000, 12416313347300000000000000000000000000000000000000000000000000000000000000000000000000000000, 12415074124700000000000000000000000000000000000000000000000000000000000000000000000000000000, 12413839930900000000000000000000000000000000000000000000000000000000000000000000000000000000, 12412610545100000000000000000000000000000000000000000000000000000000000000000000000000000000, 12411385758400000000000000000000000000000000000000000000000000000000000000000000000000000000, 12410165373900000000000000000000000000000000000000000000000000000000000000000000000000000000]),
  (568182164329000, [12446680883800000000000000000000000000000000000000000000000000000000000000000000000000000000, 12444215050600000000000000000000000000000000000000000000000000000000000000000000000000000000, 12443378105100000000000000000000000000000000000000000000000000000000000000000000000000000000, 12442536920200000000000000000000000000000000000000000000000000000000000000000000000000000000, 12441486780600000000000000000000000000000000000000000000000000000000000000000000000000000000, 12440266906000000000000000000000000000000000000000000000000000000000000000000000000000000000, 12438936778700000000000000000000000000000000000000000000000000000000000000000000000000000000, 12437541418400000000000000000000000000000000000000000000000000000000000000000000000000000000, 12436110762500000000000000000000000000000000000000000000000000000000000000000000000000000000, 12434663862600000000000000000000000000000000000000000000000000000000000000000000000000000000, 12433212589100000000000000000000000000000000000000000000000000000000000000000000000000000000, 12431764217600000000000000000000000000000000000000000000000000000000000000000000000000000000, 12430323114100000000000000000000000000000000000000000000000000000000000000000000000000000000, 12428891807000000000000000000000000000000000000000000000000000000000000000000000000000000000, 12427471664900000000000000000000000000000000000000000000000000000000000000000000000000000000, 12426063324500000000000000000000000000000000000000000000000000000000000000000000000000000000, 12424666963000000000000000000000000000000000000000000000000000000000000000000000000000000000, 12423282471600000000000000000000000000000000000000000000000000000000000000000000000000000000, 12421909567000000000000000000000000000000000000000000000000000000000000000000000000000000000, 12420547863800000000000000000000000000000000000000000000000000000000000000000000000000000000, 12419196920800000000000000000000000000000000000000000000000000000000000000000000000000000000, 12417856270900000000000000000000000000000000000000000000000000000000000000000000000000000000, 12416525441000000000000000000000000000000000000000000000000000000000000000000000000000000000, 12415203963500000000000000000000000000000000000000000000000000000000000000000000000000000000, 12413891384400000000000000000000000000000000000000000000000000000000000000000000000000000000, 12412587267800000000000000000000000000000000000000000000000000000000000000000000000000000000, 12411291197700000000000000000000000000000000000000000000000000000000000000000000000000000000, 12410002779700000000000000000000000000000000000000000000000000000000000000000000000000000000, 12408721640800000000000000000000000000000000000000000000000000000000000000000000000000000000, 12407447429000000000000000000000000000000000000000000000000000000000000000000000000000000000, 12406179812800000000000000000000000000000000000000000000000000000000000000000000000000000000, 12404918479900000000000000000000000000000000000000000000000000000000000000000000000000000000, 12403663136700000000000000000000000000000000000000000000000000000000000000000000000000000000, 12402413506400000000000000000000000000000000000000000000000000000000000000000000000000000000, 12401169328700000000000000000000000000000000000000000000000000000000000000000000000000000000, 12399930358300000000000000000000000000000000000000000000000000000000000000000000000000000000, 12398696363800000000000000000000000000000000000000000000000000000000000000000000000000000000, 12397467127300000000000000000000000000000000000000000000000000000000000000000000000000000000, 12396242442700000000000000000000000000000000000000000000000000000000000000000000000000000000, 12395022115500000000000000000000000000000000000000000000000000000000000000000000000000000000]),
  (570286172345000, [12431160452100000000000000000000000000000000000000000000000000000000000000000000000000000000, 12428712545600000000000000000000000000000000000000000000000000000000000000000000000000000000, 12427888278700000000000000000000000000000000000000000000000000000000000000000000000000000000, 12427056963700000000000000000000000000000000000000000000000000000000000000000000000000000000, 12426014797400000000000000000000000000000000000000000000000000000000000000000000000000000000, 12424801648400000000000000000000000000000000000000000000000000000000000000000000000000000000, 12423477422200000000000000000000000000000000000000000000000000000000000000000000000000000000, 12422087373800000000000000000000000000000000000000000000000000000000000000000000000000000000, 12420661564300000000000000000000000000000000000000000000000000000000000000000000000000000000, 12419219113300000000000000000000000000000000000000000000000000000000000000000000000000000000, 12417771934600000000000000000000000000000000000000000000000000000000000000000000000000000000, 12416327336600000000000000000000000000000000000000000000000000000000000000000000000000000000, 12414889712600000000000000000000000000000000000000000000000000000000000000000000000000000000, 12413461615400000000000000000000000000000000000000000000000000000000000000000000000000000000, 12412044435100000000000000000000000000000000000000000000000000000000000000000000000000000000, 12410638828200000000000000000000000000000000000000000000000000000000000000000000000000000000, 12409244989800000000000000000000000000000000000000000000000000000000000000000000000000000000, 12407862827200000000000000000000000000000000000000000000000000000000000000000000000000000000, 12406492071800000000000000000000000000000000000000000000000000000000000000000000000000000000, 12405132351400000000000000000000000000000000000000000000000000000000000000000000000000000000, 12403783236600000000000000000000000000000000000000000000000000000000000000000000000000000000, 12402444271500000000000000000000000000000000000000000000000000000000000000000000000000000000, 12401114992600000000000000000000000000000000000000000000000000000000000000000000000000000000, 12399794941500000000000000000000000000000000000000000000000000000000000000000000000000000000, 12398483672700000000000000000000000000000000000000000000000000000000000000000000000000000000, 12397180757400000000000000000000000000000000000000000000000000000000000000000000000000000000, 12395885786800000000000000000000000000000000000000000000000000000000000000000000000000000000, 12394598372800000000000000000000000000000000000000000000000000000000000000000000000000000000, 12393318148200000000000000000000000000000000000000000000000000000000000000000000000000000000, 12392044766500000000000000000000000000000000000000000000000000000000000000000000000000000000, 12390777901100000000000000000000000000000000000000000000000000000000000000000000000000000000, 12389517244600000000000000000000000000000000000000000000000000000000000000000000000000000000, 12388262507300000000000000000000000000000000000000000000000000000000000000000000000000000000, 12387013416700000000000000000000000000000000000000000000000000000000000000000000000000000000, 12385769716200000000000000000000000000000000000000000000000000000000000000000000000000000000, 12384531163800000000000000000000000000000000000000000000000000000000000000000000000000000000, 12383297531600000000000000000000000000000000000000000000000000000000000000000000000000000000, 12382068604500000000000000000000000000000000000000000000000000000000000000000000000000000000, 12380844179500000000000000000000000000000000000000000000000000000000000000000000000000000000, 12379624064700000000000000000000000000000000000000000000000000000000000000000000000000000000]),
  (572390180361000, [12415364579100000000000000000000000000000000000000000000000000000000000000000000000000000000, 12412936029400000000000000000000000000000000000000000000000000000000000000000000000000000000, 12412125205600000000000000000000000000000000000000000000000000000000000000000000000000000000, 12411304171400000000000000000000000000000000000000000000000000000000000000000000000000000000, 12410270331200000000000000000000000000000000000000000000000000000000000000000000000000000000, 12409064276300000000000000000000000000000000000000000000000000000000000000000000000000000000, 12407746329500000000000000000000000000000000000000000000000000000000000000000000000000000000, 12406361968400000000000000000000000000000000000000000000000000000000000000000000000000000000, 12404941370200000000000000000000000000000000000000000000000000000000000000000000000000000000, 12403503720000000000000000000000000000000000000000000000000000000000000000000000000000000000, 12402060975000000000000000000000000000000000000000000000000000000000000000000000000000000000, 12400620476800000000000000000000000000000000000000000000000000000000000000000000000000000000, 12399186646600000000000000000000000000000000000000000000000000000000000000000000000000000000, 12397762062200000000000000000000000000000000000000000000000000000000000000000000000000000000, 12396348136200000000000000000000000000000000000000000000000000000000000000000000000000000000, 12394945545500000000000000000000000000000000000000000000000000000000000000000000000000000000, 12393554503700000000000000000000000000000000000000000000000000000000000000000000000000000000, 12392174934700000000000000000000000000000000000000000000000000000000000000000000000000000000, 12390806585200000000000000000000000000000000000000000000000000000000000000000000000000000000, 12389449096800000000000000000000000000000000000000000000000000000000000000000000000000000000, 12388102052700000000000000000000000000000000000000000000000000000000000000000000000000000000, 12386765008100000000000000000000000000000000000000000000000000000000000000000000000000000000, 12385437510200000000000000000000000000000000000000000000000000000000000000000000000000000000, 12384119109800000000000000000000000000000000000000000000000000000000000000000000000000000000, 12382809369900000000000000000000000000000000000000000000000000000000000000000000000000000000, 12381507869900000000000000000000000000000000000000000000000000000000000000000000000000000000, 12380214207900000000000000000000000000000000000000000000000000000000000000000000000000000000, 12378928002600000000000000000000000000000000000000000000000000000000000000000000000000000000, 12377648892800000000000000000000000000000000000000000000000000000000000000000000000000000000, 12376376537700000000000000000000000000000000000000000000000000000000000000000000000000000000, 12375110615900000000000000000000000000000000000000000000000000000000000000000000000000000000, 12373850824800000000000000000000000000000000000000000000000000000000000000000000000000000000, 12372596879200000000000000000000000000000000000000000000000000000000000000000000000000000000, 12371348510800000000000000000000000000000000000000000000000000000000000000000000000000000000, 12370105466800000000000000000000000000000000000000000000000000000000000000000000000000000000, 12368867508900000000000000000000000000000000000000000000000000000000000000000000000000000000, 12367634412600000000000000000000000000000000000000000000000000000000000000000000000000000000, 12366405965900000000000000000000000000000000000000000000000000000000000000000000000000000000, 12365181968800000000000000000000000000000000000000000000000000000000000000000000000000000000, 12363962232300000000000000000000000000000000000000000000000000000000000000000000000000000000]),
  (574494188377000, [12399288105000000000000000000000000000000000000000000000000000000000000000000000000000000000, 12396878301700000000000000000000000000000000000000000000000000000000000000000000000000000000, 12396080618800000000000000000000000000000000000000000000000000000000000000000000000000000000, 12395269735600000000000000000000000000000000000000000000000000000000000000000000000000000000, 12394244313100000000000000000000000000000000000000000000000000000000000000000000000000000000, 12393045597600000000000000000000000000000000000000000000000000000000000000000000000000000000, 12391734251500000000000000000000000000000000000000000000000000000000000000000000000000000000, 12390355926200000000000000000000000000000000000000000000000000000000000000000000000000000000, 12388940891400000000000000000000000000000000000000000000000000000000000000000000000000000000, 12387508388200000000000000000000000000000000000000000000000000000000000000000000000000000000, 12386070413500000000000000000000000000000000000000000000000000000000000000000000000000000000, 12384634340800000000000000000000000000000000000000000000000000000000000000000000000000000000, 12383204619700000000000000000000000000000000000000000000000000000000000000000000000000000000, 12381783853000000000000000000000000000000000000000000000000000000000000000000000000000000000, 12380373476500000000000000000000000000000000000000000000000000000000000000000000000000000000, 12378974188100000000000000000000000000000000000000000000000000000000000000000000000000000000, 12377586220200000000000000000000000000000000000000000000000000000000000000000000000000000000, 12376209514300000000000000000000000000000000000000000000000000000000000000000000000000000000, 12374843832800000000000000000000000000000000000000000000000000000000000000000000000000000000, 12373488831600000000000000000000000000000000000000000000000000000000000000000000000000000000, 12372144106800000000000000000000000000000000000000000000000000000000000000000000000000000000, 12370809225500000000000000000000000000000000000000000000000000000000000000000000000000000000, 12369483745500000000000000000000000000000000000000000000000000000000000000000000000000000000, 12368167227500000000000000000000000000000000000000000000000000000000000000000000000000000000, 12366859243400000000000000000000000000000000000000000000000000000000000000000000000000000000, 12365559380500000000000000000000000000000000000000000000000000000000000000000000000000000000, 12364267244800000000000000000000000000000000000000000000000000000000000000000000000000000000, 12362982461500000000000000000000000000000000000000000000000000000000000000000000000000000000, 12361704676000000000000000000000000000000000000000000000000000000000000000000000000000000000, 12360433553200000000000000000000000000000000000000000000000000000000000000000000000000000000, 12359168777100000000000000000000000000000000000000000000000000000000000000000000000000000000, 12357910050100000000000000000000000000000000000000000000000000000000000000000000000000000000, 12356657091600000000000000000000000000000000000000000000000000000000000000000000000000000000, 12355409637700000000000000000000000000000000000000000000000000000000000000000000000000000000, 12354167439500000000000000000000000000000000000000000000000000000000000000000000000000000000, 12352930262600000000000000000000000000000000000000000000000000000000000000000000000000000000, 12351697886000000000000000000000000000000000000000000000000000000000000000000000000000000000, 12350470100900000000000000000000000000000000000000000000000000000000000000000000000000000000, 12349246710500000000000000000000000000000000000000000000000000000000000000000000000000000000, 12348027528700000000000000000000000000000000000000000000000000000000000000000000000000000000]),
  (576598196393000, [12382924680600000000000000000000000000000000000000000000000000000000000000000000000000000000, 12380531873300000000000000000000000000000000000000000000000000000000000000000000000000000000, 12379746101700000000000000000000000000000000000000000000000000000000000000000000000000000000, 12378944766000000000000000000000000000000000000000000000000000000000000000000000000000000000, 12377927622800000000000000000000000000000000000000000000000000000000000000000000000000000000, 12376736373600000000000000000000000000000000000000000000000000000000000000000000000000000000, 12375431885100000000000000000000000000000000000000000000000000000000000000000000000000000000, 12374059908000000000000000000000000000000000000000000000000000000000000000000000000000000000, 12372650768700000000000000000000000000000000000000000000000000000000000000000000000000000000, 12371223747400000000000000000000000000000000000000000000000000000000000000000000000000000000, 12369790873500000000000000000000000000000000000000000000000000000000000000000000000000000000, 12368359549700000000000000000000000000000000000000000000000000000000000000000000000000000000, 12366934252200000000000000000000000000000000000000000000000000000000000000000000000000000000, 12365517609100000000000000000000000000000000000000000000000000000000000000000000000000000000, 12364111079200000000000000000000000000000000000000000000000000000000000000000000000000000000, 12362715381800000000000000000000000000000000000000000000000000000000000000000000000000000000, 12361330768900000000000000000000000000000000000000000000000000000000000000000000000000000000, 12359957199900000000000000000000000000000000000000000000000000000000000000000000000000000000, 12358594453300000000000000000000000000000000000000000000000000000000000000000000000000000000, 12357242199700000000000000000000000000000000000000000000000000000000000000000000000000000000, 12355900048800000000000000000000000000000000000000000000000000000000000000000000000000000000, 12354567579700000000000000000000000000000000000000000000000000000000000000000000000000000000, 12353244361300000000000000000000000000000000000000000000000000000000000000000000000000000000, 12351929964500000000000000000000000000000000000000000000000000000000000000000000000000000000, 12350623970200000000000000000000000000000000000000000000000000000000000000000000000000000000, 12349325974400000000000000000000000000000000000000000000000000000000000000000000000000000000, 12348035590500000000000000000000000000000000000000000000000000000000000000000000000000000000, 12346752451000000000000000000000000000000000000000000000000000000000000000000000000000000000, 12345476207600000000000000000000000000000000000000000000000000000000000000000000000000000000, 12344206531500000000000000000000000000000000000000000000000000000000000000000000000000000000, 12342943112100000000000000000000000000000000000000000000000000000000000000000000000000000000, 12341685656900000000000000000000000000000000000000000000000000000000000000000000000000000000, 12340433890200000000000000000000000000000000000000000000000000000000000000000000000000000000, 12339187552500000000000000000000000000000000000000000000000000000000000000000000000000000000, 12337946399200000000000000000000000000000000000000000000000000000000000000000000000000000000, 12336710199600000000000000000000000000000000000000000000000000000000000000000000000000000000, 12335478736300000000000000000000000000000000000000000000000000000000000000000000000000000000, 12334251804100000000000000000000000000000000000000000000000000000000000000000000000000000000, 12333029209200000000000000000000000000000000000000000000000000000000000000000000000000000000, 12331810768600000000000000000000000000000000000000000000000000000000000000000000000000000000])]
noncomputable def ttSpec11 : List (Nat × List Nat) := [
  (578702204409000, [12366265668100000000000000000000000000000000000000000000000000000000000000000000000000000000, 12363888119500000000000000000000000000000000000000000000000000000000000000000000000000000000, 12363112657700000000000000000000000000000000000000000000000000000000000000000000000000000000, 12362320071400000000000000000000000000000000000000000000000000000000000000000000000000000000, 12361310960500000000000000000000000000000000000000000000000000000000000000000000000000000000, 12360127234400000000000000000000000000000000000000000000000000000000000000000000000000000000, 12358829814100000000000000000000000000000000000000000000000000000000000000000000000000000000, 12357464468800000000000000000000000000000000000000000000000000000000000000000000000000000000, 12356061540000000000000000000000000000000000000000000000000000000000000000000000000000000000, 12354640326800000000000000000000000000000000000000000000000000000000000000000000000000000000, 12353212880500000000000000000000000000000000000000000000000000000000000000000000000000000000, 12351786627800000000000000000000000000000000000000000000000000000000000000000000000000000000, 12350366069800000000000000000000000000000000000000000000000000000000000000000000000000000000, 12348953858300000000000000000000000000000000000000000000000000000000000000000000000000000000, 12347551475400000000000000000000000000000000000000000000000000000000000000000000000000000000, 12346159661700000000000000000000000000000000000000000000000000000000000000000000000000000000, 12344778689200000000000000000000000000000000000000000000000000000000000000000000000000000000, 12343408535500000000000000000000000000000000000000000000000000000000000000000000000000000000, 12342048996000000000000000000000000000000000000000000000000000000000000000000000000000000000, 12340699756200000000000000000000000000000000000000000000000000000000000000000000000000000000, 12339360439700000000000000000000000000000000000000000000000000000000000000000000000000000000, 12338030638200000000000000000000000000000000000000000000000000000000000000000000000000000000, 12336709931800000000000000000000000000000000000000000000000000000000000000000000000000000000, 12335397901900000000000000000000000000000000000000000000000000000000000000000000000000000000, 12334094139000000000000000000000000000000000000000000000000000000000000000000000000000000000, 12332798247500000000000000000000000000000000000000000000000000000000000000000000000000000000, 12331509848900000000000000000000000000000000000000000000000000000000000000000000000000000000, 12330228582900000000000000000000000000000000000000000000000000000000000000000000000000000000, 12328954108000000000000000000000000000000000000000000000000000000000000000000000000000000000, 12327686101400000000000000000000000000000000000000000000000000000000000000000000000000000000, 12326424258400000000000000000000000000000000000000000000000000000000000000000000000000000000, 12325168291700000000000000000000000000000000000000000000000000000000000000000000000000000000, 12323917930700000000000000000000000000000000000000000000000000000000000000000000000000000000, 12322672920200000000000000000000000000000000000000000000000000000000000000000000000000000000, 12321433020000000000000000000000000000000000000000000000000000000000000000000000000000000000, 12320198003500000000000000000000000000000000000000000000000000000000000000000000000000000000, 12318967656900000000000000000000000000000000000000000000000000000000000000000000000000000000, 12317741778500000000000000000000000000000000000000000000000000000000000000000000000000000000, 12316520178000000000000000000000000000000000000000000000000000000000000000000000000000000000, 12315302675200000000000000000000000000000000000000000000000000000000000000000000000000000000]),
  (580806212425000, [12349300309100000000000000000000000000000000000000000000000000000000000000000000000000000000, 12346936839700000000000000000000000000000000000000000000000000000000000000000000000000000000, 12346170455400000000000000000000000000000000000000000000000000000000000000000000000000000000, 12345386006800000000000000000000000000000000000000000000000000000000000000000000000000000000, 12344384742800000000000000000000000000000000000000000000000000000000000000000000000000000000, 12343208604900000000000000000000000000000000000000000000000000000000000000000000000000000000, 12341918456700000000000000000000000000000000000000000000000000000000000000000000000000000000, 12340560020200000000000000000000000000000000000000000000000000000000000000000000000000000000, 12339163614300000000000000000000000000000000000000000000000000000000000000000000000000000000, 12337748535900000000000000000000000000000000000000000000000000000000000000000000000000000000, 12336326847100000000000000000000000000000000000000000000000000000000000000000000000000000000, 12334905992500000000000000000000000000000000000000000000000000000000000000000000000000000000, 12333490494700000000000000000000000000000000000000000000000000000000000000000000000000000000, 12332083028500000000000000000000000000000000000000000000000000000000000000000000000000000000, 12330685098600000000000000000000000000000000000000000000000000000000000000000000000000000000, 12329297467100000000000000000000000000000000000000000000000000000000000000000000000000000000, 12327920426500000000000000000000000000000000000000000000000000000000000000000000000000000000, 12326553972900000000000000000000000000000000000000000000000000000000000000000000000000000000, 12325197918900000000000000000000000000000000000000000000000000000000000000000000000000000000, 12323851965700000000000000000000000000000000000000000000000000000000000000000000000000000000, 12322515750900000000000000000000000000000000000000000000000000000000000000000000000000000000, 12321188879200000000000000000000000000000000000000000000000000000000000000000000000000000000, 12319870942500000000000000000000000000000000000000000000000000000000000000000000000000000000, 12318561532800000000000000000000000000000000000000000000000000000000000000000000000000000000, 12317260250300000000000000000000000000000000000000000000000000000000000000000000000000000000, 12315966708300000000000000000000000000000000000000000000000000000000000000000000000000000000, 12314680536500000000000000000000000000000000000000000000000000000000000000000000000000000000, 12313401382000000000000000000000000000000000000000000000000000000000000000000000000000000000, 12312128910300000000000000000000000000000000000000000000000000000000000000000000000000000000, 12310862804800000000000000000000000000000000000000000000000000000000000000000000000000000000, 12309602766700000000000000000000000000000000000000000000000000000000000000000000000000000000, 12308348514200000000000000000000000000000000000000000000000000000000000000000000000000000000, 12307099781600000000000000000000000000000000000000000000000000000000000000000000000000000000, 12305856318600000000000000000000000000000000000000000000000000000000000000000000000000000000, 12304617889300000000000000000000000000000000000000000000000000000000000000000000000000000000, 12303384271100000000000000000000000000000000000000000000000000000000000000000000000000000000, 12302155254200000000000000000000000000000000000000000000000000000000000000000000000000000000, 12300930640600000000000000000000000000000000000000000000000000000000000000000000000000000000, 12299710243000000000000000000000000000000000000000000000000000000000000000000000000000000000, 12298493884700000000000000000000000000000000000000000000000000000000000000000000000000000000]),
  (582910220441000, [12332016494300000000000000000000000000000000000000000000000000000000000000000000000000000000, 12329666584000000000000000000000000000000000000000000000000000000000000000000000000000000000, 12328908920400000000000000000000000000000000000000000000000000000000000000000000000000000000, 12328132459200000000000000000000000000000000000000000000000000000000000000000000000000000000, 12327139060900000000000000000000000000000000000000000000000000000000000000000000000000000000, 12325970665200000000000000000000000000000000000000000000000000000000000000000000000000000000, 12324688035600000000000000000000000000000000000000000000000000000000000000000000000000000000, 12323336809600000000000000000000000000000000000000000000000000000000000000000000000000000000, 12321947257000000000000000000000000000000000000000000000000000000000000000000000000000000000, 12320538655100000000000000000000000000000000000000000000000000000000000000000000000000000000, 12319123066500000000000000000000000000000000000000000000000000000000000000000000000000000000, 12317707948300000000000000000000000000000000000000000000000000000000000000000000000000000000, 12316297842200000000000000000000000000000000000000000000000000000000000000000000000000000000, 12314895444600000000000000000000000000000000000000000000000000000000000000000000000000000000, 12313502282500000000000000000000000000000000000000000000000000000000000000000000000000000000, 12312119140400000000000000000000000000000000000000000000000000000000000000000000000000000000, 12310746331300000000000000000000000000000000000000000000000000000000000000000000000000000000, 12309383870500000000000000000000000000000000000000000000000000000000000000000000000000000000, 12308031588400000000000000000000000000000000000000000000000000000000000000000000000000000000, 12306689202200000000000000000000000000000000000000000000000000000000000000000000000000000000, 12305356364400000000000000000000000000000000000000000000000000000000000000000000000000000000, 12304032692800000000000000000000000000000000000000000000000000000000000000000000000000000000, 12302717791400000000000000000000000000000000000000000000000000000000000000000000000000000000, 12301411263200000000000000000000000000000000000000000000000000000000000000000000000000000000, 12300112718400000000000000000000000000000000000000000000000000000000000000000000000000000000, 12298821779500000000000000000000000000000000000000000000000000000000000000000000000000000000, 12297538084400000000000000000000000000000000000000000000000000000000000000000000000000000000, 12296261288100000000000000000000000000000000000000000000000000000000000000000000000000000000, 12294991062900000000000000000000000000000000000000000000000000000000000000000000000000000000, 12293727098800000000000000000000000000000000000000000000000000000000000000000000000000000000, 12292469103200000000000000000000000000000000000000000000000000000000000000000000000000000000, 12291216799600000000000000000000000000000000000000000000000000000000000000000000000000000000, 12289969927600000000000000000000000000000000000000000000000000000000000000000000000000000000, 12288728241800000000000000000000000000000000000000000000000000000000000000000000000000000000, 12287491510700000000000000000000000000000000000000000000000000000000000000000000000000000000, 12286259515900000000000000000000000000000000000000000000000000000000000000000000000000000000, 12285032051500000000000000000000000000000000000000000000000000000000000000000000000000000000, 12283808923200000000000000000000000000000000000000000000000000000000000000000000000000000000, 12282589947300000000000000000000000000000000000000000000000000000000000000000000000000000000, 12281374950200000000000000000000000000000000000000000000000000000000000000000000000000000000]),
  (585014228457000, [12314401950500000000000000000000000000000000000000000000000000000000000000000000000000000000, 12312065595200000000000000000000000000000000000000000000000000000000000000000000000000000000, 12311317107800000000000000000000000000000000000000000000000000000000000000000000000000000000, 12310548965100000000000000000000000000000000000000000000000000000000000000000000000000000000, 12309563712300000000000000000000000000000000000000000000000000000000000000000000000000000000, 12308403358300000000000000000000000000000000000000000000000000000000000000000000000000000000, 12307128580800000000000000000000000000000000000000000000000000000000000000000000000000000000, 12305784923300000000000000000000000000000000000000000000000000000000000000000000000000000000, 12304402593300000000000000000000000000000000000000000000000000000000000000000000000000000000, 12303000838200000000000000000000000000000000000000000000000000000000000000000000000000000000, 12301591714900000000000000000000000000000000000000000000000000000000000000000000000000000000, 12300182689800000000000000000000000000000000000000000000000000000000000000000000000000000000, 12298778321900000000000000000000000000000000000000000000000000000000000000000000000000000000, 12297381329500000000000000000000000000000000000000000000000000000000000000000000000000000000, 12295993262400000000000000000000000000000000000000000000000000000000000000000000000000000000, 12294614927700000000000000000000000000000000000000000000000000000000000000000000000000000000, 12293246659900000000000000000000000000000000000000000000000000000000000000000000000000000000, 12291888494500000000000000000000000000000000000000000000000000000000000000000000000000000000, 12290540280100000000000000000000000000000000000000000000000000000000000000000000000000000000, 12289201750800000000000000000000000000000000000000000000000000000000000000000000000000000000, 12287872574100000000000000000000000000000000000000000000000000000000000000000000000000000000, 12286552381800000000000000000000000000000000000000000000000000000000000000000000000000000000, 12285240790300000000000000000000000000000000000000000000000000000000000000000000000000000000, 12283937413900000000000000000000000000000000000000000000000000000000000000000000000000000000, 12282641873000000000000000000000000000000000000000000000000000000000000000000000000000000000, 12281353799600000000000000000000000000000000000000000000000000000000000000000000000000000000, 12280072840400000000000000000000000000000000000000000000000000000000000000000000000000000000, 12278798657900000000000000000000000000000000000000000000000000000000000000000000000000000000, 12277530931900000000000000000000000000000000000000000000000000000000000000000000000000000000, 12276269359000000000000000000000000000000000000000000000000000000000000000000000000000000000, 12275013652700000000000000000000000000000000000000000000000000000000000000000000000000000000, 12273763542400000000000000000000000000000000000000000000000000000000000000000000000000000000, 12272518772900000000000000000000000000000000000000000000000000000000000000000000000000000000, 12271279103700000000000000000000000000000000000000000000000000000000000000000000000000000000, 12270044307800000000000000000000000000000000000000000000000000000000000000000000000000000000, 12268814171300000000000000000000000000000000000000000000000000000000000000000000000000000000, 12267588492300000000000000000000000000000000000000000000000000000000000000000000000000000000, 12266367080200000000000000000000000000000000000000000000000000000000000000000000000000000000, 12265149755000000000000000000000000000000000000000000000000000000000000000000000000000000000, 12263936346300000000000000000000000000000000000000000000000000000000000000000000000000000000]),
  (587118236473000, [12296445423800000000000000000000000000000000000000000000000000000000000000000000000000000000, 12294122644000000000000000000000000000000000000000000000000000000000000000000000000000000000, 12293384080800000000000000000000000000000000000000000000000000000000000000000000000000000000, 12292624883100000000000000000000000000000000000000000000000000000000000000000000000000000000, 12291648289400000000000000000000000000000000000000000000000000000000000000000000000000000000, 12290496443600000000000000000000000000000000000000000000000000000000000000000000000000000000, 12289229965900000000000000000000000000000000000000000000000000000000000000000000000000000000, 12287894312200000000000000000000000000000000000000000000000000000000000000000000000000000000, 12286519627300000000000000000000000000000000000000000000000000000000000000000000000000000000, 12285125127500000000000000000000000000000000000000000000000000000000000000000000000000000000, 12283722863200000000000000000000000000000000000000000000000000000000000000000000000000000000, 12282320310000000000000000000000000000000000000000000000000000000000000000000000000000000000, 12280922045500000000000000000000000000000000000000000000000000000000000000000000000000000000, 12279530810600000000000000000000000000000000000000000000000000000000000000000000000000000000, 12278148179400000000000000000000000000000000000000000000000000000000000000000000000000000000, 12276774982800000000000000000000000000000000000000000000000000000000000000000000000000000000, 12275411578100000000000000000000000000000000000000000000000000000000000000000000000000000000, 12274058021800000000000000000000000000000000000000000000000000000000000000000000000000000000, 12272714181600000000000000000000000000000000000000000000000000000000000000000000000000000000, 12271379809400000000000000000000000000000000000000000000000000000000000000000000000000000000, 12270054588300000000000000000000000000000000000000000000000000000000000000000000000000000000, 12268738164400000000000000000000000000000000000000000000000000000000000000000000000000000000, 12267430167200000000000000000000000000000000000000000000000000000000000000000000000000000000, 12266130222500000000000000000000000000000000000000000000000000000000000000000000000000000000, 12264837961700000000000000000000000000000000000000000000000000000000000000000000000000000000, 12263553026200000000000000000000000000000000000000000000000000000000000000000000000000000000, 12262275071500000000000000000000000000000000000000000000000000000000000000000000000000000000, 12261003768500000000000000000000000000000000000000000000000000000000000000000000000000000000, 12259738804200000000000000000000000000000000000000000000000000000000000000000000000000000000, 12258479882300000000000000000000000000000000000000000000000000000000000000000000000000000000, 12257226722300000000000000000000000000000000000000000000000000000000000000000000000000000000, 12255979059600000000000000000000000000000000000000000000000000000000000000000000000000000000, 12254736644500000000000000000000000000000000000000000000000000000000000000000000000000000000, 12253499241500000000000000000000000000000000000000000000000000000000000000000000000000000000, 12252266628300000000000000000000000000000000000000000000000000000000000000000000000000000000, 12251038595600000000000000000000000000000000000000000000000000000000000000000000000000000000, 12249814945300000000000000000000000000000000000000000000000000000000000000000000000000000000, 12248595490900000000000000000000000000000000000000000000000000000000000000000000000000000000, 12247380055900000000000000000000000000000000000000000000000000000000000000000000000000000000, 12246168473400000000000000000000000000000000000000000000000000000000000000000000000000000000]),
  (589222244489000, [12278136464900000000000000000000000000000000000000000000000000000000000000000000000000000000, 12275827073400000000000000000000000000000000000000000000000000000000000000000000000000000000, 12275099058100000000000000000000000000000000000000000000000000000000000000000000000000000000, 12274349537500000000000000000000000000000000000000000000000000000000000000000000000000000000, 12273382292200000000000000000000000000000000000000000000000000000000000000000000000000000000, 12272239579100000000000000000000000000000000000000000000000000000000000000000000000000000000, 12270981966300000000000000000000000000000000000000000000000000000000000000000000000000000000, 12269654833600000000000000000000000000000000000000000000000000000000000000000000000000000000, 12268288272700000000000000000000000000000000000000000000000000000000000000000000000000000000, 12266901476400000000000000000000000000000000000000000000000000000000000000000000000000000000, 12265506493700000000000000000000000000000000000000000000000000000000000000000000000000000000, 12264110814000000000000000000000000000000000000000000000000000000000000000000000000000000000, 12262719036600000000000000000000000000000000000000000000000000000000000000000000000000000000, 12261333927600000000000000000000000000000000000000000000000000000000000000000000000000000000, 12259957087700000000000000000000000000000000000000000000000000000000000000000000000000000000, 12258589373300000000000000000000000000000000000000000000000000000000000000000000000000000000, 12257231165900000000000000000000000000000000000000000000000000000000000000000000000000000000, 12255882544400000000000000000000000000000000000000000000000000000000000000000000000000000000, 12254543396700000000000000000000000000000000000000000000000000000000000000000000000000000000, 12253213493000000000000000000000000000000000000000000000000000000000000000000000000000000000, 12251892532900000000000000000000000000000000000000000000000000000000000000000000000000000000, 12250580177600000000000000000000000000000000000000000000000000000000000000000000000000000000, 12249276069800000000000000000000000000000000000000000000000000000000000000000000000000000000, 12247979847700000000000000000000000000000000000000000000000000000000000000000000000000000000, 12246691153500000000000000000000000000000000000000000000000000000000000000000000000000000000, 12245409638800000000000000000000000000000000000000000000000000000000000000000000000000000000, 12244134968100000000000000000000000000000000000000000000000000000000000000000000000000000000, 12242866820700000000000000000000000000000000000000000000000000000000000000000000000000000000, 12241604891300000000000000000000000000000000000000000000000000000000000000000000000000000000, 12240348890500000000000000000000000000000000000000000000000000000000000000000000000000000000, 12239098544500000000000000000000000000000000000000000000000000000000000000000000000000000000, 12237853594600000000000000000000000000000000000000000000000000000000000000000000000000000000, 12236613796600000000000000000000000000000000000000000000000000000000000000000000000000000000, 12235378920300000000000000000000000000000000000000000000000000000000000000000000000000000000, 12234148748300000000000000000000000000000000000000000000000000000000000000000000000000000000, 12232923075500000000000000000000000000000000000000000000000000000000000000000000000000000000, 12231701708400000000000000000000000000000000000000000000000000000000000000000000000000000000, 12230484464200000000000000000000000000000000000000000000000000000000000000000000000000000000, 12229271170200000000000000000000000000000000000000000000000000000000000000000000000000000000, 12228061663100000000000000000000000000000000000000000000000000000000000000000000000000000000]),
  (591326252505000, [12259463747200000000000000000000000000000000000000000000000000000000000000000000000000000000, 12257168161900000000000000000000000000000000000000000000000000000000000000000000000000000000, 12256451337900000000000000000000000000000000000000000000000000000000000000000000000000000000, 12255712310700000000000000000000000000000000000000000000000000000000000000000000000000000000, 12254755240300000000000000000000000000000000000000000000000000000000000000000000000000000000, 12253622411500000000000000000000000000000000000000000000000000000000000000000000000000000000, 12252374325200000000000000000000000000000000000000000000000000000000000000000000000000000000, 12251056297700000000000000000000000000000000000000000000000000000000000000000000000000000000, 12249698385600000000000000000000000000000000000000000000000000000000000000000000000000000000, 12248319772800000000000000000000000000000000000000000000000000000000000000000000000000000000, 12246932518400000000000000000000000000000000000000000000000000000000000000000000000000000000, 12245544132800000000000000000000000000000000000000000000000000000000000000000000000000000000, 12244159242200000000000000000000000000000000000000000000000000000000000000000000000000000000, 12242780642200000000000000000000000000000000000000000000000000000000000000000000000000000000, 12241409962400000000000000000000000000000000000000000000000000000000000000000000000000000000, 12240048087200000000000000000000000000000000000000000000000000000000000000000000000000000000, 12238695424000000000000000000000000000000000000000000000000000000000000000000000000000000000, 12237352075200000000000000000000000000000000000000000000000000000000000000000000000000000000, 12236017950100000000000000000000000000000000000000000000000000000000000000000000000000000000, 12234692838200000000000000000000000000000000000000000000000000000000000000000000000000000000, 12233376456400000000000000000000000000000000000000000000000000000000000000000000000000000000, 12232068481300000000000000000000000000000000000000000000000000000000000000000000000000000000, 12230768569700000000000000000000000000000000000000000000000000000000000000000000000000000000, 12229476372400000000000000000000000000000000000000000000000000000000000000000000000000000000, 12228191543000000000000000000000000000000000000000000000000000000000000000000000000000000000, 12226913743400000000000000000000000000000000000000000000000000000000000000000000000000000000, 12225642647600000000000000000000000000000000000000000000000000000000000000000000000000000000, 12224377943400000000000000000000000000000000000000000000000000000000000000000000000000000000, 12223119333400000000000000000000000000000000000000000000000000000000000000000000000000000000, 12221866535500000000000000000000000000000000000000000000000000000000000000000000000000000000, 12220619282500000000000000000000000000000000000000000000000000000000000000000000000000000000, 12219377321900000000000000000000000000000000000000000000000000000000000000000000000000000000, 12218140415300000000000000000000000000000000000000000000000000000000000000000000000000000000, 12216908337700000000000000000000000000000000000000000000000000000000000000000000000000000000, 12215680876600000000000000000000000000000000000000000000000000000000000000000000000000000000, 12214457831800000000000000000000000000000000000000000000000000000000000000000000000000000000, 12213239013900000000000000000000000000000000000000000000000000000000000000000000000000000000, 12212024244200000000000000000000000000000000000000000000000000000000000000000000000000000000, 12210813353700000000000000000000000000000000000000000000000000000000000000000000000000000000, 12209606182900000000000000000000000000000000000000000000000000000000000000000000000000000000]),
  (593430260521000, [12240414232400000000000000000000000000000000000000000000000000000000000000000000000000000000, 12238134666300000000000000000000000000000000000000000000000000000000000000000000000000000000, 12237430227900000000000000000000000000000000000000000000000000000000000000000000000000000000, 12236702715500000000000000000000000000000000000000000000000000000000000000000000000000000000, 12235756765100000000000000000000000000000000000000000000000000000000000000000000000000000000, 12234634651900000000000000000000000000000000000000000000000000000000000000000000000000000000, 12233396807100000000000000000000000000000000000000000000000000000000000000000000000000000000, 12232088504700000000000000000000000000000000000000000000000000000000000000000000000000000000, 12230739790400000000000000000000000000000000000000000000000000000000000000000000000000000000, 12229369859200000000000000000000000000000000000000000000000000000000000000000000000000000000, 12227990793800000000000000000000000000000000000000000000000000000000000000000000000000000000, 12226610135300000000000000000000000000000000000000000000000000000000000000000000000000000000, 12225232543100000000000000000000000000000000000000000000000000000000000000000000000000000000, 12223860846400000000000000000000000000000000000000000000000000000000000000000000000000000000, 12222496707200000000000000000000000000000000000000000000000000000000000000000000000000000000, 12221141040000000000000000000000000000000000000000000000000000000000000000000000000000000000, 12219794279700000000000000000000000000000000000000000000000000000000000000000000000000000000, 12218456553500000000000000000000000000000000000000000000000000000000000000000000000000000000, 12217127793500000000000000000000000000000000000000000000000000000000000000000000000000000000, 12215807808800000000000000000000000000000000000000000000000000000000000000000000000000000000, 12214496334800000000000000000000000000000000000000000000000000000000000000000000000000000000, 12213193063900000000000000000000000000000000000000000000000000000000000000000000000000000000, 12211897667600000000000000000000000000000000000000000000000000000000000000000000000000000000, 12210609809600000000000000000000000000000000000000000000000000000000000000000000000000000000, 12209329155300000000000000000000000000000000000000000000000000000000000000000000000000000000, 12208055377400000000000000000000000000000000000000000000000000000000000000000000000000000000, 12206788159500000000000000000000000000000000000000000000000000000000000000000000000000000000, 12205527198300000000000000000000000000000000000000000000000000000000000000000000000000000000, 12204272204500000000000000000000000000000000000000000000000000000000000000000000000000000000, 12203022903400000000000000000000000000000000000000000000000000000000000000000000000000000000, 12201779034800000000000000000000000000000000000000000000000000000000000000000000000000000000, 12200540352400000000000000000000000000000000000000000000000000000000000000000000000000000000, 12199306623700000000000000000000000000000000000000000000000000000000000000000000000000000000, 12198077629100000000000000000000000000000000000000000000000000000000000000000000000000000000, 12196853161300000000000000000000000000000000000000000000000000000000000000000000000000000000, 12195633024600000000000000000000000000000000000000000000000000000000000000000000000000000000, 12194417034300000000000000000000000000000000000000000000000000000000000000000000000000000000, 12193205015800000000000000000000000000000000000000000000000000000000000000000000000000000000, 12191996803900000000000000000000000000000000000000000000000000000000000000000000000000000000, 12190792242800000000000000000000000000000000000000000000000000000000000000000000000000000000]),
  (595534268537000, [12220974674500000000000000000000000000000000000000000000000000000000000000000000000000000000, 12218715213200000000000000000000000000000000000000000000000000000000000000000000000000000000, 12218025174100000000000000000000000000000000000000000000000000000000000000000000000000000000, 12217310476000000000000000000000000000000000000000000000000000000000000000000000000000000000, 12216376668400000000000000000000000000000000000000000000000000000000000000000000000000000000, 12215266116000000000000000000000000000000000000000000000000000000000000000000000000000000000, 12214039224900000000000000000000000000000000000000000000000000000000000000000000000000000000, 12212741262800000000000000000000000000000000000000000000000000000000000000000000000000000000, 12211402293000000000000000000000000000000000000000000000000000000000000000000000000000000000, 12210041541600000000000000000000000000000000000000000000000000000000000000000000000000000000, 12208671128800000000000000000000000000000000000000000000000000000000000000000000000000000000, 12207298635300000000000000000000000000000000000000000000000000000000000000000000000000000000, 12205928759900000000000000000000000000000000000000000000000000000000000000000000000000000000, 12204564369400000000000000000000000000000000000000000000000000000000000000000000000000000000, 12203207160800000000000000000000000000000000000000000000000000000000000000000000000000000000, 12201858080800000000000000000000000000000000000000000000000000000000000000000000000000000000, 12200517593200000000000000000000000000000000000000000000000000000000000000000000000000000000, 12199185851500000000000000000000000000000000000000000000000000000000000000000000000000000000, 12197862810900000000000000000000000000000000000000000000000000000000000000000000000000000000, 12196548301700000000000000000000000000000000000000000000000000000000000000000000000000000000, 12195242077500000000000000000000000000000000000000000000000000000000000000000000000000000000, 12193943847700000000000000000000000000000000000000000000000000000000000000000000000000000000, 12192653298700000000000000000000000000000000000000000000000000000000000000000000000000000000, 12191370107500000000000000000000000000000000000000000000000000000000000000000000000000000000, 12190093951800000000000000000000000000000000000000000000000000000000000000000000000000000000, 12188824515300000000000000000000000000000000000000000000000000000000000000000000000000000000, 12187561491500000000000000000000000000000000000000000000000000000000000000000000000000000000, 12186304586200000000000000000000000000000000000000000000000000000000000000000000000000000000, 12185053518600000000000000000000000000000000000000000000000000000000000000000000000000000000, 12183808021400000000000000000000000000000000000000000000000000000000000000000000000000000000, 12182567841600000000000000000000000000000000000000000000000000000000000000000000000000000000, 12181332739300000000000000000000000000000000000000000000000000000000000000000000000000000000, 12180102488100000000000000000000000000000000000000000000000000000000000000000000000000000000, 12178876874000000000000000000000000000000000000000000000000000000000000000000000000000000000, 12177655694900000000000000000000000000000000000000000000000000000000000000000000000000000000, 12176438759900000000000000000000000000000000000000000000000000000000000000000000000000000000, 12175225888800000000000000000000000000000000000000000000000000000000000000000000000000000000, 12174016911300000000000000000000000000000000000000000000000000000000000000000000000000000000, 12172811666200000000000000000000000000000000000000000000000000000000000000000000000000000000, 12171610001400000000000000000000000000000000000000000000000000000000000000000000000000000000]),
  (597638276553000, [12201134098400000000000000000000000000000000000000000000000000000000000000000000000000000000, 12198899266600000000000000000000000000000000000000000000000000000000000000000000000000000000, 12198226039500000000000000000000000000000000000000000000000000000000000000000000000000000000, 12197525593500000000000000000000000000000000000000000000000000000000000000000000000000000000, 12196604929600000000000000000000000000000000000000000000000000000000000000000000000000000000, 12195506716100000000000000000000000000000000000000000000000000000000000000000000000000000000, 12194291430300000000000000000000000000000000000000000000000000000000000000000000000000000000, 12193004381300000000000000000000000000000000000000000000000000000000000000000000000000000000, 12191675676200000000000000000000000000000000000000000000000000000000000000000000000000000000, 12190324588200000000000000000000000000000000000000000000000000000000000000000000000000000000, 12188963285100000000000000000000000000000000000000000000000000000000000000000000000000000000, 12187599393600000000000000000000000000000000000000000000000000000000000000000000000000000000, 12186237656500000000000000000000000000000000000000000000000000000000000000000000000000000000, 12184880981000000000000000000000000000000000000000000000000000000000000000000000000000000000, 12183531101200000000000000000000000000000000000000000000000000000000000000000000000000000000, 12182188997300000000000000000000000000000000000000000000000000000000000000000000000000000000, 12180855163300000000000000000000000000000000000000000000000000000000000000000000000000000000, 12179529779600000000000000000000000000000000000000000000000000000000000000000000000000000000, 12178212825500000000000000000000000000000000000000000000000000000000000000000000000000000000, 12176904152500000000000000000000000000000000000000000000000000000000000000000000000000000000, 12175603533700000000000000000000000000000000000000000000000000000000000000000000000000000000, 12174310695400000000000000000000000000000000000000000000000000000000000000000000000000000000, 12173025339300000000000000000000000000000000000000000000000000000000000000000000000000000000, 12171747156500000000000000000000000000000000000000000000000000000000000000000000000000000000, 12170475836800000000000000000000000000000000000000000000000000000000000000000000000000000000, 12169211075400000000000000000000000000000000000000000000000000000000000000000000000000000000, 12167952575900000000000000000000000000000000000000000000000000000000000000000000000000000000, 12166700053600000000000000000000000000000000000000000000000000000000000000000000000000000000, 12165453236000000000000000000000000000000000000000000000000000000000000000000000000000000000, 12164211864000000000000000000000000000000000000000000000000000000000000000000000000000000000, 12162975691400000000000000000000000000000000000000000000000000000000000000000000000000000000, 12161744485300000000000000000000000000000000000000000000000000000000000000000000000000000000, 12160518025400000000000000000000000000000000000000000000000000000000000000000000000000000000, 12159296103300000000000000000000000000000000000000000000000000000000000000000000000000000000, 12158078522200000000000000000000000000000000000000000000000000000000000000000000000000000000, 12156865096400000000000000000000000000000000000000000000000000000000000000000000000000000000, 12155655650200000000000000000000000000000000000000000000000000000000000000000000000000000000, 12154450017500000000000000000000000000000000000000000000000000000000000000000000000000000000, 12153248041600000000000000000000000000000000000000000000000000000000000000000000000000000000, 12152049573800000000000000000000000000000000000000000000000000000000000000000000000000000000]),
  (599742284569000, [12180885118400000000000000000000000000000000000000000000000000000000000000000000000000000000, 12178677757400000000000000000000000000000000000000000000000000000000000000000000000000000000, 12178023271900000000000000000000000000000000000000000000000000000000000000000000000000000000, 12177338327100000000000000000000000000000000000000000000000000000000000000000000000000000000, 12176431639700000000000000000000000000000000000000000000000000000000000000000000000000000000, 12175346401700000000000000000000000000000000000000000000000000000000000000000000000000000000, 12174143270600000000000000000000000000000000000000000000000000000000000000000000000000000000, 12172867641100000000000000000000000000000000000000000000000000000000000000000000000000000000, 12171549681100000000000000000000000000000000000000000000000000000000000000000000000000000000, 12170208717900000000000000000000000000000000000000000000000000000000000000000000000000000000, 12168856970700000000000000000000000000000000000000000000000000000000000000000000000000000000, 12167502115300000000000000000000000000000000000000000000000000000000000000000000000000000000, 12166148939900000000000000000000000000000000000000000000000000000000000000000000000000000000, 12164800393800000000000000000000000000000000000000000000000000000000000000000000000000000000, 12163458249100000000000000000000000000000000000000000000000000000000000000000000000000000000, 12162123520300000000000000000000000000000000000000000000000000000000000000000000000000000000, 12160796732100000000000000000000000000000000000000000000000000000000000000000000000000000000, 12159478092400000000000000000000000000000000000000000000000000000000000000000000000000000000, 12158167604800000000000000000000000000000000000000000000000000000000000000000000000000000000, 12156865142900000000000000000000000000000000000000000000000000000000000000000000000000000000, 12155570499100000000000000000000000000000000000000000000000000000000000000000000000000000000, 12154283417200000000000000000000000000000000000000000000000000000000000000000000000000000000, 12153003614500000000000000000000000000000000000000000000000000000000000000000000000000000000, 12151730796100000000000000000000000000000000000000000000000000000000000000000000000000000000, 12150464664800000000000000000000000000000000000000000000000000000000000000000000000000000000, 12149204927100000000000000000000000000000000000000000000000000000000000000000000000000000000, 12147951297200000000000000000000000000000000000000000000000000000000000000000000000000000000, 12146703499800000000000000000000000000000000000000000000000000000000000000000000000000000000, 12145461271400000000000000000000000000000000000000000000000000000000000000000000000000000000, 12144224360700000000000000000000000000000000000000000000000000000000000000000000000000000000, 12142992528900000000000000000000000000000000000000000000000000000000000000000000000000000000, 12141765550100000000000000000000000000000000000000000000000000000000000000000000000000000000, 12140543210100000000000000000000000000000000000000000000000000000000000000000000000000000000, 12139325306400000000000000000000000000000000000000000000000000000000000000000000000000000000, 12138111647900000000000000000000000000000000000000000000000000000000000000000000000000000000, 12136902053700000000000000000000000000000000000000000000000000000000000000000000000000000000, 12135696352900000000000000000000000000000000000000000000000000000000000000000000000000000000, 12134494384000000000000000000000000000000000000000000000000000000000000000000000000000000000, 12133295994300000000000000000000000000000000000000000000000000000000000000000000000000000000, 12132101039200000000000000000000000000000000000000000000000000000000000000000000000000000000]),
  (601846292585000, [12160222896800000000000000000000000000000000000000000000000000000000000000000000000000000000, 12158042724000000000000000000000000000000000000000000000000000000000000000000000000000000000, 12157407736400000000000000000000000000000000000000000000000000000000000000000000000000000000, 12156739033000000000000000000000000000000000000000000000000000000000000000000000000000000000, 12155846867500000000000000000000000000000000000000000000000000000000000000000000000000000000, 12154775061400000000000000000000000000000000000000000000000000000000000000000000000000000000, 12153584522800000000000000000000000000000000000000000000000000000000000000000000000000000000, 12152320752600000000000000000000000000000000000000000000000000000000000000000000000000000000, 12151013980300000000000000000000000000000000000000000000000000000000000000000000000000000000, 12149683583700000000000000000000000000000000000000000000000000000000000000000000000000000000, 12148341831000000000000000000000000000000000000000000000000000000000000000000000000000000000, 12146996445100000000000000000000000000000000000000000000000000000000000000000000000000000000, 12145652259400000000000000000000000000000000000000000000000000000000000000000000000000000000, 12144312264700000000000000000000000000000000000000000000000000000000000000000000000000000000, 12142978271300000000000000000000000000000000000000000000000000000000000000000000000000000000, 12141651328200000000000000000000000000000000000000000000000000000000000000000000000000000000, 12140331990900000000000000000000000000000000000000000000000000000000000000000000000000000000, 12139020494900000000000000000000000000000000000000000000000000000000000000000000000000000000, 12137716868600000000000000000000000000000000000000000000000000000000000000000000000000000000, 12136421007400000000000000000000000000000000000000000000000000000000000000000000000000000000, 12135132723400000000000000000000000000000000000000000000000000000000000000000000000000000000, 12133851778400000000000000000000000000000000000000000000000000000000000000000000000000000000, 12132577905200000000000000000000000000000000000000000000000000000000000000000000000000000000, 12131310823600000000000000000000000000000000000000000000000000000000000000000000000000000000, 12130050249000000000000000000000000000000000000000000000000000000000000000000000000000000000, 12128795899700000000000000000000000000000000000000000000000000000000000000000000000000000000, 12127547500700000000000000000000000000000000000000000000000000000000000000000000000000000000, 12126304786400000000000000000000000000000000000000000000000000000000000000000000000000000000, 12125067502200000000000000000000000000000000000000000000000000000000000000000000000000000000, 12123835405000000000000000000000000000000000000000000000000000000000000000000000000000000000, 12122608263700000000000000000000000000000000000000000000000000000000000000000000000000000000, 12121385859200000000000000000000000000000000000000000000000000000000000000000000000000000000, 12120167983700000000000000000000000000000000000000000000000000000000000000000000000000000000, 12118954441000000000000000000000000000000000000000000000000000000000000000000000000000000000, 12117745045300000000000000000000000000000000000000000000000000000000000000000000000000000000, 12116539621000000000000000000000000000000000000000000000000000000000000000000000000000000000, 12115338002100000000000000000000000000000000000000000000000000000000000000000000000000000000, 12114140031700000000000000000000000000000000000000000000000000000000000000000000000000000000, 12112945561300000000000000000000000000000000000000000000000000000000000000000000000000000000, 12111754450300000000000000000000000000000000000000000000000000000000000000000000000000000000]),
  (603950300601000, [12139141850700000000000000000000000000000000000000000000000000000000000000000000000000000000, 12136986136900000000000000000000000000000000000000000000000000000000000000000000000000000000, 12136370214300000000000000000000000000000000000000000000000000000000000000000000000000000000, 12135717886000000000000000000000000000000000000000000000000000000000000000000000000000000000, 12134840486700000000000000000000000000000000000000000000000000000000000000000000000000000000, 12133782415800000000000000000000000000000000000000000000000000000000000000000000000000000000, 12132604827300000000000000000000000000000000000000000000000000000000000000000000000000000000, 12131353314900000000000000000000000000000000000000000000000000000000000000000000000000000000, 12130058153300000000000000000000000000000000000000000000000000000000000000000000000000000000, 12128738758900000000000000000000000000000000000000000000000000000000000000000000000000000000, 12127407440600000000000000000000000000000000000000000000000000000000000000000000000000000000, 12126071964300000000000000000000000000000000000000000000000000000000000000000000000000000000, 12124737205900000000000000000000000000000000000000000000000000000000000000000000000000000000, 12123406196800000000000000000000000000000000000000000000000000000000000000000000000000000000, 12122080784700000000000000000000000000000000000000000000000000000000000000000000000000000000, 12120762052500000000000000000000000000000000000000000000000000000000000000000000000000000000, 12119450586600000000000000000000000000000000000000000000000000000000000000000000000000000000, 12118146650000000000000000000000000000000000000000000000000000000000000000000000000000000000, 12116850295800000000000000000000000000000000000000000000000000000000000000000000000000000000, 12115561441600000000000000000000000000000000000000000000000000000000000000000000000000000000, 12114279919400000000000000000000000000000000000000000000000000000000000000000000000000000000, 12113005508600000000000000000000000000000000000000000000000000000000000000000000000000000000, 12111737958400000000000000000000000000000000000000000000000000000000000000000000000000000000, 12110477002700000000000000000000000000000000000000000000000000000000000000000000000000000000, 12109222370300000000000000000000000000000000000000000000000000000000000000000000000000000000, 12107973791400000000000000000000000000000000000000000000000000000000000000000000000000000000, 12106731001800000000000000000000000000000000000000000000000000000000000000000000000000000000, 12105493746000000000000000000000000000000000000000000000000000000000000000000000000000000000, 12104261778300000000000000000000000000000000000000000000000000000000000000000000000000000000, 12103034864000000000000000000000000000000000000000000000000000000000000000000000000000000000, 12101812779800000000000000000000000000000000000000000000000000000000000000000000000000000000, 12100595313600000000000000000000000000000000000000000000000000000000000000000000000000000000, 12099382264400000000000000000000000000000000000000000000000000000000000000000000000000000000, 12098173442000000000000000000000000000000000000000000000000000000000000000000000000000000000, 12096968666400000000000000000000000000000000000000000000000000000000000000000000000000000000, 12095767767200000000000000000000000000000000000000000000000000000000000000000000000000000000, 12094570583500000000000000000000000000000000000000000000000000000000000000000000000000000000, 12093376963000000000000000000000000000000000000000000000000000000000000000000000000000000000, 12092186761500000000000000000000000000000000000000000000000000000000000000000000000000000000, 12090999842800000000000000000000000000000000000000000000000000000000000000000000000000000000]),
  (606054308617000, [12117632460200000000000000000000000000000000000000000000000000000000000000000000000000000000, 12115498662500000000000000000000000000000000000000000000000000000000000000000000000000000000, 12114900809900000000000000000000000000000000000000000000000000000000000000000000000000000000, 12114264591700000000000000000000000000000000000000000000000000000000000000000000000000000000, 12113402029800000000000000000000000000000000000000000000000000000000000000000000000000000000, 12112357937900000000000000000000000000000000000000000000000000000000000000000000000000000000, 12111193643300000000000000000000000000000000000000000000000000000000000000000000000000000000, 12109954790300000000000000000000000000000000000000000000000000000000000000000000000000000000, 12108671672800000000000000000000000000000000000000000000000000000000000000000000000000000000, 12107363729800000000000000000000000000000000000000000000000000000000000000000000000000000000, 12106043301800000000000000000000000000000000000000000000000000000000000000000000000000000000, 12104718192300000000000000000000000000000000000000000000000000000000000000000000000000000000, 12103393316800000000000000000000000000000000000000000000000000000000000000000000000000000000, 12102071745600000000000000000000000000000000000000000000000000000000000000000000000000000000, 12100755363000000000000000000000000000000000000000000000000000000000000000000000000000000000, 12099445285500000000000000000000000000000000000000000000000000000000000000000000000000000000, 12098142130100000000000000000000000000000000000000000000000000000000000000000000000000000000, 12096846187200000000000000000000000000000000000000000000000000000000000000000000000000000000, 12095557534700000000000000000000000000000000000000000000000000000000000000000000000000000000, 12094276112500000000000000000000000000000000000000000000000000000000000000000000000000000000, 12093001772400000000000000000000000000000000000000000000000000000000000000000000000000000000, 12091734311900000000000000000000000000000000000000000000000000000000000000000000000000000000, 12090473496400000000000000000000000000000000000000000000000000000000000000000000000000000000, 12089219074600000000000000000000000000000000000000000000000000000000000000000000000000000000, 12087970788500000000000000000000000000000000000000000000000000000000000000000000000000000000, 12086728380300000000000000000000000000000000000000000000000000000000000000000000000000000000, 12085491597100000000000000000000000000000000000000000000000000000000000000000000000000000000, 12084260193300000000000000000000000000000000000000000000000000000000000000000000000000000000, 12083033932600000000000000000000000000000000000000000000000000000000000000000000000000000000, 12081812588800000000000000000000000000000000000000000000000000000000000000000000000000000000, 12080595946400000000000000000000000000000000000000000000000000000000000000000000000000000000, 12079383800800000000000000000000000000000000000000000000000000000000000000000000000000000000, 12078175957600000000000000000000000000000000000000000000000000000000000000000000000000000000, 12076972232800000000000000000000000000000000000000000000000000000000000000000000000000000000, 12075772452300000000000000000000000000000000000000000000000000000000000000000000000000000000, 12074576451200000000000000000000000000000000000000000000000000000000000000000000000000000000, 12073384073800000000000000000000000000000000000000000000000000000000000000000000000000000000, 12072195172400000000000000000000000000000000000000000000000000000000000000000000000000000000, 12071009607500000000000000000000000000000000000000000000000000000000000000000000000000000000, 12069827246800000000000000000000000000000000000000000000000000000000000000000000000000000000]),
  (608158316633000, [12095681142200000000000000000000000000000000000000000000000000000000000000000000000000000000, 12093569077100000000000000000000000000000000000000000000000000000000000000000000000000000000, 12092988586800000000000000000000000000000000000000000000000000000000000000000000000000000000, 12092368235300000000000000000000000000000000000000000000000000000000000000000000000000000000, 12091520633400000000000000000000000000000000000000000000000000000000000000000000000000000000, 12090490836000000000000000000000000000000000000000000000000000000000000000000000000000000000, 12089340244800000000000000000000000000000000000000000000000000000000000000000000000000000000, 12088114506300000000000000000000000000000000000000000000000000000000000000000000000000000000, 12086843909500000000000000000000000000000000000000000000000000000000000000000000000000000000, 12085547903100000000000000000000000000000000000000000000000000000000000000000000000000000000, 12084238852600000000000000000000000000000000000000000000000000000000000000000000000000000000, 12082924595400000000000000000000000000000000000000000000000000000000000000000000000000000000, 12081610084600000000000000000000000000000000000000000000000000000000000000000000000000000000, 12080298428400000000000000000000000000000000000000000000000000000000000000000000000000000000, 12078991547200000000000000000000000000000000000000000000000000000000000000000000000000000000, 12077690590900000000000000000000000000000000000000000000000000000000000000000000000000000000, 12076396207000000000000000000000000000000000000000000000000000000000000000000000000000000000, 12075108713700000000000000000000000000000000000000000000000000000000000000000000000000000000, 12073828213600000000000000000000000000000000000000000000000000000000000000000000000000000000, 12072554669100000000000000000000000000000000000000000000000000000000000000000000000000000000, 12071287952100000000000000000000000000000000000000000000000000000000000000000000000000000000, 12070027878300000000000000000000000000000000000000000000000000000000000000000000000000000000, 12068774229600000000000000000000000000000000000000000000000000000000000000000000000000000000, 12067526769400000000000000000000000000000000000000000000000000000000000000000000000000000000, 12066285253300000000000000000000000000000000000000000000000000000000000000000000000000000000, 12065049436000000000000000000000000000000000000000000000000000000000000000000000000000000000, 12063819075600000000000000000000000000000000000000000000000000000000000000000000000000000000, 12062593936900000000000000000000000000000000000000000000000000000000000000000000000000000000, 12061373793100000000000000000000000000000000000000000000000000000000000000000000000000000000, 12060158426600000000000000000000000000000000000000000000000000000000000000000000000000000000, 12058947630100000000000000000000000000000000000000000000000000000000000000000000000000000000, 12057741206200000000000000000000000000000000000000000000000000000000000000000000000000000000, 12056538967600000000000000000000000000000000000000000000000000000000000000000000000000000000, 12055340736700000000000000000000000000000000000000000000000000000000000000000000000000000000, 12054146345300000000000000000000000000000000000000000000000000000000000000000000000000000000, 12052955634300000000000000000000000000000000000000000000000000000000000000000000000000000000, 12051768452900000000000000000000000000000000000000000000000000000000000000000000000000000000, 12050584658600000000000000000000000000000000000000000000000000000000000000000000000000000000, 12049404116300000000000000000000000000000000000000000000000000000000000000000000000000000000, 12048226698100000000000000000000000000000000000000000000000000000000000000000000000000000000]),
  (610262324649000, [12073272828900000000000000000000000000000000000000000000000000000000000000000000000000000000, 12071184588500000000000000000000000000000000000000000000000000000000000000000000000000000000, 12070621652800000000000000000000000000000000000000000000000000000000000000000000000000000000, 12070017359000000000000000000000000000000000000000000000000000000000000000000000000000000000, 12069185109500000000000000000000000000000000000000000000000000000000000000000000000000000000, 12068170109100000000000000000000000000000000000000000000000000000000000000000000000000000000, 12067033762100000000000000000000000000000000000000000000000000000000000000000000000000000000, 12065821686700000000000000000000000000000000000000000000000000000000000000000000000000000000, 12064564156200000000000000000000000000000000000000000000000000000000000000000000000000000000, 12063280625900000000000000000000000000000000000000000000000000000000000000000000000000000000, 12061983484700000000000000000000000000000000000000000000000000000000000000000000000000000000, 12060680603500000000000000000000000000000000000000000000000000000000000000000000000000000000, 12059376973000000000000000000000000000000000000000000000000000000000000000000000000000000000, 12058075739600000000000000000000000000000000000000000000000000000000000000000000000000000000, 12056778859900000000000000000000000000000000000000000000000000000000000000000000000000000000, 12055487517900000000000000000000000000000000000000000000000000000000000000000000000000000000, 12054202392000000000000000000000000000000000000000000000000000000000000000000000000000000000, 12052923828200000000000000000000000000000000000000000000000000000000000000000000000000000000, 12051651954700000000000000000000000000000000000000000000000000000000000000000000000000000000, 12050386756400000000000000000000000000000000000000000000000000000000000000000000000000000000, 12049128125700000000000000000000000000000000000000000000000000000000000000000000000000000000, 12047875896900000000000000000000000000000000000000000000000000000000000000000000000000000000, 12046629868500000000000000000000000000000000000000000000000000000000000000000000000000000000, 12045389819100000000000000000000000000000000000000000000000000000000000000000000000000000000, 12044155518100000000000000000000000000000000000000000000000000000000000000000000000000000000, 12042926732600000000000000000000000000000000000000000000000000000000000000000000000000000000, 12041703232200000000000000000000000000000000000000000000000000000000000000000000000000000000, 12040484792300000000000000000000000000000000000000000000000000000000000000000000000000000000, 12039271195600000000000000000000000000000000000000000000000000000000000000000000000000000000, 12038062233500000000000000000000000000000000000000000000000000000000000000000000000000000000, 12036857707000000000000000000000000000000000000000000000000000000000000000000000000000000000, 12035657426300000000000000000000000000000000000000000000000000000000000000000000000000000000, 12034461211000000000000000000000000000000000000000000000000000000000000000000000000000000000, 12033268890200000000000000000000000000000000000000000000000000000000000000000000000000000000, 12032080301900000000000000000000000000000000000000000000000000000000000000000000000000000000, 12030895292500000000000000000000000000000000000000000000000000000000000000000000000000000000, 12029713716700000000000000000000000000000000000000000000000000000000000000000000000000000000, 12028535437000000000000000000000000000000000000000000000000000000000000000000000000000000000, 12027360323100000000000000000000000000000000000000000000000000000000000000000000000000000000, 12026188251400000000000000000000000000000000000000000000000000000000000000000000000000000000]),
  (612366332665000, [12050393392500000000000000000000000000000000000000000000000000000000000000000000000000000000, 12048331870000000000000000000000000000000000000000000000000000000000000000000000000000000000, 12047787676100000000000000000000000000000000000000000000000000000000000000000000000000000000, 12047200254100000000000000000000000000000000000000000000000000000000000000000000000000000000, 12046384125100000000000000000000000000000000000000000000000000000000000000000000000000000000, 12045384662200000000000000000000000000000000000000000000000000000000000000000000000000000000, 12044263258700000000000000000000000000000000000000000000000000000000000000000000000000000000, 12043065506100000000000000000000000000000000000000000000000000000000000000000000000000000000, 12041821670100000000000000000000000000000000000000000000000000000000000000000000000000000000, 12040551219300000000000000000000000000000000000000000000000000000000000000000000000000000000, 12039266571300000000000000000000000000000000000000000000000000000000000000000000000000000000, 12037975634200000000000000000000000000000000000000000000000000000000000000000000000000000000, 12036683438400000000000000000000000000000000000000000000000000000000000000000000000000000000, 12035393170000000000000000000000000000000000000000000000000000000000000000000000000000000000, 12034106823700000000000000000000000000000000000000000000000000000000000000000000000000000000, 12032825618500000000000000000000000000000000000000000000000000000000000000000000000000000000, 12031550264500000000000000000000000000000000000000000000000000000000000000000000000000000000, 12030281136800000000000000000000000000000000000000000000000000000000000000000000000000000000, 12029018389300000000000000000000000000000000000000000000000000000000000000000000000000000000, 12027762030200000000000000000000000000000000000000000000000000000000000000000000000000000000, 12026511973000000000000000000000000000000000000000000000000000000000000000000000000000000000, 12025268070900000000000000000000000000000000000000000000000000000000000000000000000000000000, 12024030139200000000000000000000000000000000000000000000000000000000000000000000000000000000, 12022797972300000000000000000000000000000000000000000000000000000000000000000000000000000000, 12021571353500000000000000000000000000000000000000000000000000000000000000000000000000000000, 12020350062800000000000000000000000000000000000000000000000000000000000000000000000000000000, 12019133881500000000000000000000000000000000000000000000000000000000000000000000000000000000, 12017922595600000000000000000000000000000000000000000000000000000000000000000000000000000000, 12016715997800000000000000000000000000000000000000000000000000000000000000000000000000000000, 12015513888800000000000000000000000000000000000000000000000000000000000000000000000000000000, 12014316077600000000000000000000000000000000000000000000000000000000000000000000000000000000, 12013122382400000000000000000000000000000000000000000000000000000000000000000000000000000000, 12011932630200000000000000000000000000000000000000000000000000000000000000000000000000000000, 12010746656600000000000000000000000000000000000000000000000000000000000000000000000000000000, 12009564305900000000000000000000000000000000000000000000000000000000000000000000000000000000, 12008385430600000000000000000000000000000000000000000000000000000000000000000000000000000000, 12007209890700000000000000000000000000000000000000000000000000000000000000000000000000000000, 12006037553800000000000000000000000000000000000000000000000000000000000000000000000000000000, 12004868294500000000000000000000000000000000000000000000000000000000000000000000000000000000, 12003701993900000000000000000000000000000000000000000000000000000000000000000000000000000000]),
  (614470340681000, [12027030847800000000000000000000000000000000000000000000000000000000000000000000000000000000, 12024998290900000000000000000000000000000000000000000000000000000000000000000000000000000000, 12024474580100000000000000000000000000000000000000000000000000000000000000000000000000000000, 12023905341200000000000000000000000000000000000000000000000000000000000000000000000000000000, 12023106422600000000000000000000000000000000000000000000000000000000000000000000000000000000, 12022123443400000000000000000000000000000000000000000000000000000000000000000000000000000000, 12021017823600000000000000000000000000000000000000000000000000000000000000000000000000000000, 12019835156600000000000000000000000000000000000000000000000000000000000000000000000000000000, 12018605722500000000000000000000000000000000000000000000000000000000000000000000000000000000, 12017349018800000000000000000000000000000000000000000000000000000000000000000000000000000000, 12016077501600000000000000000000000000000000000000000000000000000000000000000000000000000000, 12014799122200000000000000000000000000000000000000000000000000000000000000000000000000000000, 12013518955500000000000000000000000000000000000000000000000000000000000000000000000000000000, 12012240230700000000000000000000000000000000000000000000000000000000000000000000000000000000, 12010964982800000000000000000000000000000000000000000000000000000000000000000000000000000000, 12009694467500000000000000000000000000000000000000000000000000000000000000000000000000000000, 12008429428600000000000000000000000000000000000000000000000000000000000000000000000000000000, 12007170270900000000000000000000000000000000000000000000000000000000000000000000000000000000, 12005917175400000000000000000000000000000000000000000000000000000000000000000000000000000000, 12004670174300000000000000000000000000000000000000000000000000000000000000000000000000000000, 12003429202800000000000000000000000000000000000000000000000000000000000000000000000000000000, 12002194133300000000000000000000000000000000000000000000000000000000000000000000000000000000, 12000964799000000000000000000000000000000000000000000000000000000000000000000000000000000000, 11999741009900000000000000000000000000000000000000000000000000000000000000000000000000000000, 11998522563800000000000000000000000000000000000000000000000000000000000000000000000000000000, 11997309253800000000000000000000000000000000000000000000000000000000000000000000000000000000, 11996100873400000000000000000000000000000000000000000000000000000000000000000000000000000000, 11994897219400000000000000000000000000000000000000000000000000000000000000000000000000000000, 11993698094800000000000000000000000000000000000000000000000000000000000000000000000000000000, 11992503309400000000000000000000000000000000000000000000000000000000000000000000000000000000, 11991312681100000000000000000000000000000000000000000000000000000000000000000000000000000000, 11990126036000000000000000000000000000000000000000000000000000000000000000000000000000000000, 11988943208400000000000000000000000000000000000000000000000000000000000000000000000000000000, 11987764040900000000000000000000000000000000000000000000000000000000000000000000000000000000, 11986588384400000000000000000000000000000000000000000000000000000000000000000000000000000000, 11985416097100000000000000000000000000000000000000000000000000000000000000000000000000000000, 11984247044900000000000000000000000000000000000000000000000000000000000000000000000000000000, 11983081100600000000000000000000000000000000000000000000000000000000000000000000000000000000, 11981918143700000000000000000000000000000000000000000000000000000000000000000000000000000000, 11980758060000000000000000000000000000000000000000000000000000000000000000000000000000000000]),
  (616574348697000, [12003175672200000000000000000000000000000000000000000000000000000000000000000000000000000000, 12001172670100000000000000000000000000000000000000000000000000000000000000000000000000000000, 12000671057600000000000000000000000000000000000000000000000000000000000000000000000000000000, 12000121470700000000000000000000000000000000000000000000000000000000000000000000000000000000, 11999340999000000000000000000000000000000000000000000000000000000000000000000000000000000000, 11998375561900000000000000000000000000000000000000000000000000000000000000000000000000000000, 11997286655500000000000000000000000000000000000000000000000000000000000000000000000000000000, 11996119912100000000000000000000000000000000000000000000000000000000000000000000000000000000, 11994905651700000000000000000000000000000000000000000000000000000000000000000000000000000000, 11993663417700000000000000000000000000000000000000000000000000000000000000000000000000000000, 11992405716500000000000000000000000000000000000000000000000000000000000000000000000000000000, 11991140550800000000000000000000000000000000000000000000000000000000000000000000000000000000, 11989873045800000000000000000000000000000000000000000000000000000000000000000000000000000000, 11988606477900000000000000000000000000000000000000000000000000000000000000000000000000000000, 11987342925700000000000000000000000000000000000000000000000000000000000000000000000000000000, 11986083684300000000000000000000000000000000000000000000000000000000000000000000000000000000, 11984829532500000000000000000000000000000000000000000000000000000000000000000000000000000000, 11983580907000000000000000000000000000000000000000000000000000000000000000000000000000000000, 11982338016500000000000000000000000000000000000000000000000000000000000000000000000000000000, 11981100918400000000000000000000000000000000000000000000000000000000000000000000000000000000, 11979869570400000000000000000000000000000000000000000000000000000000000000000000000000000000, 11978643864900000000000000000000000000000000000000000000000000000000000000000000000000000000, 11977423653200000000000000000000000000000000000000000000000000000000000000000000000000000000, 11976208761600000000000000000000000000000000000000000000000000000000000000000000000000000000, 11974999002900000000000000000000000000000000000000000000000000000000000000000000000000000000, 11973794183600000000000000000000000000000000000000000000000000000000000000000000000000000000, 11972594109400000000000000000000000000000000000000000000000000000000000000000000000000000000, 11971398588800000000000000000000000000000000000000000000000000000000000000000000000000000000, 11970207434800000000000000000000000000000000000000000000000000000000000000000000000000000000, 11969020467000000000000000000000000000000000000000000000000000000000000000000000000000000000, 11967837512100000000000000000000000000000000000000000000000000000000000000000000000000000000, 11966658404300000000000000000000000000000000000000000000000000000000000000000000000000000000, 11965482985800000000000000000000000000000000000000000000000000000000000000000000000000000000, 11964311106200000000000000000000000000000000000000000000000000000000000000000000000000000000, 11963142622800000000000000000000000000000000000000000000000000000000000000000000000000000000, 11961977400200000000000000000000000000000000000000000000000000000000000000000000000000000000, 11960815310100000000000000000000000000000000000000000000000000000000000000000000000000000000, 11959656230600000000000000000000000000000000000000000000000000000000000000000000000000000000, 11958500046300000000000000000000000000000000000000000000000000000000000000000000000000000000, 11957346647900000000000000000000000000000000000000000000000000000000000000000000000000000000]),
  (618678356713000, [11978819533000000000000000000000000000000000000000000000000000000000000000000000000000000000, 11976845112600000000000000000000000000000000000000000000000000000000000000000000000000000000, 11976366667400000000000000000000000000000000000000000000000000000000000000000000000000000000, 11975838025000000000000000000000000000000000000000000000000000000000000000000000000000000000, 11975077189300000000000000000000000000000000000000000000000000000000000000000000000000000000, 11974130357200000000000000000000000000000000000000000000000000000000000000000000000000000000, 11973059123400000000000000000000000000000000000000000000000000000000000000000000000000000000, 11971909180800000000000000000000000000000000000000000000000000000000000000000000000000000000, 11970710907000000000000000000000000000000000000000000000000000000000000000000000000000000000, 11969483905500000000000000000000000000000000000000000000000000000000000000000000000000000000, 11968240743200000000000000000000000000000000000000000000000000000000000000000000000000000000, 11966989482400000000000000000000000000000000000000000000000000000000000000000000000000000000, 11965735304700000000000000000000000000000000000000000000000000000000000000000000000000000000, 11964481538500000000000000000000000000000000000000000000000000000000000000000000000000000000, 11963230309400000000000000000000000000000000000000000000000000000000000000000000000000000000, 11961982954700000000000000000000000000000000000000000000000000000000000000000000000000000000, 11960740290500000000000000000000000000000000000000000000000000000000000000000000000000000000, 11959502786700000000000000000000000000000000000000000000000000000000000000000000000000000000, 11958270681300000000000000000000000000000000000000000000000000000000000000000000000000000000, 11957044057800000000000000000000000000000000000000000000000000000000000000000000000000000000, 11955822897100000000000000000000000000000000000000000000000000000000000000000000000000000000, 11954607112500000000000000000000000000000000000000000000000000000000000000000000000000000000, 11953396574000000000000000000000000000000000000000000000000000000000000000000000000000000000, 11952191124700000000000000000000000000000000000000000000000000000000000000000000000000000000, 11950990592700000000000000000000000000000000000000000000000000000000000000000000000000000000, 11949794798400000000000000000000000000000000000000000000000000000000000000000000000000000000, 11948603560400000000000000000000000000000000000000000000000000000000000000000000000000000000, 11947416698500000000000000000000000000000000000000000000000000000000000000000000000000000000, 11946234036700000000000000000000000000000000000000000000000000000000000000000000000000000000, 11945055404400000000000000000000000000000000000000000000000000000000000000000000000000000000, 11943880637300000000000000000000000000000000000000000000000000000000000000000000000000000000, 11942709578100000000000000000000000000000000000000000000000000000000000000000000000000000000, 11941542076800000000000000000000000000000000000000000000000000000000000000000000000000000000, 11940377990200000000000000000000000000000000000000000000000000000000000000000000000000000000, 11939217182600000000000000000000000000000000000000000000000000000000000000000000000000000000, 11938059524800000000000000000000000000000000000000000000000000000000000000000000000000000000, 11936904894500000000000000000000000000000000000000000000000000000000000000000000000000000000, 11935753175300000000000000000000000000000000000000000000000000000000000000000000000000000000, 11934604257200000000000000000000000000000000000000000000000000000000000000000000000000000000, 11933458035500000000000000000000000000000000000000000000000000000000000000000000000000000000]),
  (620782364729000, [11953952719900000000000000000000000000000000000000000000000000000000000000000000000000000000, 11952006169700000000000000000000000000000000000000000000000000000000000000000000000000000000, 11951551544500000000000000000000000000000000000000000000000000000000000000000000000000000000, 11951044822500000000000000000000000000000000000000000000000000000000000000000000000000000000, 11950304648500000000000000000000000000000000000000000000000000000000000000000000000000000000, 11949377416600000000000000000000000000000000000000000000000000000000000000000000000000000000, 11948324796600000000000000000000000000000000000000000000000000000000000000000000000000000000, 11947192539000000000000000000000000000000000000000000000000000000000000000000000000000000000, 11946011083300000000000000000000000000000000000000000000000000000000000000000000000000000000, 11944800099900000000000000000000000000000000000000000000000000000000000000000000000000000000, 11943572224400000000000000000000000000000000000000000000000000000000000000000000000000000000, 11942335585600000000000000000000000000000000000000000000000000000000000000000000000000000000, 11941095427100000000000000000000000000000000000000000000000000000000000000000000000000000000, 11939855133900000000000000000000000000000000000000000000000000000000000000000000000000000000, 11938616882000000000000000000000000000000000000000000000000000000000000000000000000000000000, 11937382053500000000000000000000000000000000000000000000000000000000000000000000000000000000, 11936151504000000000000000000000000000000000000000000000000000000000000000000000000000000000, 11934925737800000000000000000000000000000000000000000000000000000000000000000000000000000000, 11933705023800000000000000000000000000000000000000000000000000000000000000000000000000000000, 11932489472600000000000000000000000000000000000000000000000000000000000000000000000000000000, 11931279089100000000000000000000000000000000000000000000000000000000000000000000000000000000, 11930073808100000000000000000000000000000000000000000000000000000000000000000000000000000000, 11928873518800000000000000000000000000000000000000000000000000000000000000000000000000000000, 11927678082000000000000000000000000000000000000000000000000000000000000000000000000000000000, 11926487341300000000000000000000000000000000000000000000000000000000000000000000000000000000, 11925301131700000000000000000000000000000000000000000000000000000000000000000000000000000000, 11924119284600000000000000000000000000000000000000000000000000000000000000000000000000000000, 11922941632000000000000000000000000000000000000000000000000000000000000000000000000000000000, 11921768008800000000000000000000000000000000000000000000000000000000000000000000000000000000, 11920598254400000000000000000000000000000000000000000000000000000000000000000000000000000000, 11919432214100000000000000000000000000000000000000000000000000000000000000000000000000000000, 11918269739200000000000000000000000000000000000000000000000000000000000000000000000000000000, 11917110687600000000000000000000000000000000000000000000000000000000000000000000000000000000, 11915954923800000000000000000000000000000000000000000000000000000000000000000000000000000000, 11914802319000000000000000000000000000000000000000000000000000000000000000000000000000000000, 11913652750500000000000000000000000000000000000000000000000000000000000000000000000000000000, 11912506101900000000000000000000000000000000000000000000000000000000000000000000000000000000, 11911362262900000000000000000000000000000000000000000000000000000000000000000000000000000000, 11910221128600000000000000000000000000000000000000000000000000000000000000000000000000000000, 11909082599600000000000000000000000000000000000000000000000000000000000000000000000000000000]),
  (622886372745000, [11928563174400000000000000000000000000000000000000000000000000000000000000000000000000000000, 11926646098800000000000000000000000000000000000000000000000000000000000000000000000000000000, 11926215978900000000000000000000000000000000000000000000000000000000000000000000000000000000, 11925731921600000000000000000000000000000000000000000000000000000000000000000000000000000000, 11925013277200000000000000000000000000000000000000000000000000000000000000000000000000000000, 11924106556800000000000000000000000000000000000000000000000000000000000000000000000000000000, 11923073452600000000000000000000000000000000000000000000000000000000000000000000000000000000, 11921959748900000000000000000000000000000000000000000000000000000000000000000000000000000000, 11920795941000000000000000000000000000000000000000000000000000000000000000000000000000000000, 11919601768400000000000000000000000000000000000000000000000000000000000000000000000000000000, 11918389940200000000000000000000000000000000000000000000000000000000000000000000000000000000, 11917168656900000000000000000000000000000000000000000000000000000000000000000000000000000000, 11915943228900000000000000000000000000000000000000000000000000000000000000000000000000000000, 11914717101400000000000000000000000000000000000000000000000000000000000000000000000000000000, 11913492503900000000000000000000000000000000000000000000000000000000000000000000000000000000, 11912270865100000000000000000000000000000000000000000000000000000000000000000000000000000000, 11911053082000000000000000000000000000000000000000000000000000000000000000000000000000000000, 11909839694800000000000000000000000000000000000000000000000000000000000000000000000000000000, 11908631004000000000000000000000000000000000000000000000000000000000000000000000000000000000, 11907427148300000000000000000000000000000000000000000000000000000000000000000000000000000000, 11906228157500000000000000000000000000000000000000000000000000000000000000000000000000000000, 11905033988400000000000000000000000000000000000000000000000000000000000000000000000000000000, 11903844550400000000000000000000000000000000000000000000000000000000000000000000000000000000, 11902659721900000000000000000000000000000000000000000000000000000000000000000000000000000000, 11901479363000000000000000000000000000000000000000000000000000000000000000000000000000000000, 11900303323200000000000000000000000000000000000000000000000000000000000000000000000000000000, 11899131447400000000000000000000000000000000000000000000000000000000000000000000000000000000, 11897963580000000000000000000000000000000000000000000000000000000000000000000000000000000000, 11896799567200000000000000000000000000000000000000000000000000000000000000000000000000000000, 11895639258800000000000000000000000000000000000000000000000000000000000000000000000000000000, 11894482509600000000000000000000000000000000000000000000000000000000000000000000000000000000, 11893329180000000000000000000000000000000000000000000000000000000000000000000000000000000000, 11892179136100000000000000000000000000000000000000000000000000000000000000000000000000000000, 11891032250100000000000000000000000000000000000000000000000000000000000000000000000000000000, 11889888400200000000000000000000000000000000000000000000000000000000000000000000000000000000, 11888747470600000000000000000000000000000000000000000000000000000000000000000000000000000000, 11887609351100000000000000000000000000000000000000000000000000000000000000000000000000000000, 11886473937200000000000000000000000000000000000000000000000000000000000000000000000000000000, 11885341129500000000000000000000000000000000000000000000000000000000000000000000000000000000, 11884210833800000000000000000000000000000000000000000000000000000000000000000000000000000000]),
  (624990380762000, [11902638623200000000000000000000000000000000000000000000000000000000000000000000000000000000, 11900754748300000000000000000000000000000000000000000000000000000000000000000000000000000000, 11900350130200000000000000000000000000000000000000000000000000000000000000000000000000000000, 11899889457800000000000000000000000000000000000000000000000000000000000000000000000000000000, 11899193148300000000000000000000000000000000000000000000000000000000000000000000000000000000, 11898307796800000000000000000000000000000000000000000000000000000000000000000000000000000000, 11897295069900000000000000000000000000000000000000000000000000000000000000000000000000000000, 11896200761800000000000000000000000000000000000000000000000000000000000000000000000000000000, 11895055416100000000000000000000000000000000000000000000000000000000000000000000000000000000, 11893878841400000000000000000000000000000000000000000000000000000000000000000000000000000000, 11892683823300000000000000000000000000000000000000000000000000000000000000000000000000000000, 11891478637800000000000000000000000000000000000000000000000000000000000000000000000000000000, 11890268665100000000000000000000000000000000000000000000000000000000000000000000000000000000, 11889057413300000000000000000000000000000000000000000000000000000000000000000000000000000000, 11887847166900000000000000000000000000000000000000000000000000000000000000000000000000000000, 11886639403200000000000000000000000000000000000000000000000000000000000000000000000000000000, 11885435061200000000000000000000000000000000000000000000000000000000000000000000000000000000, 11884234718300000000000000000000000000000000000000000000000000000000000000000000000000000000, 11883038707400000000000000000000000000000000000000000000000000000000000000000000000000000000, 11881847195800000000000000000000000000000000000000000000000000000000000000000000000000000000, 11880660238800000000000000000000000000000000000000000000000000000000000000000000000000000000, 11879477816000000000000000000000000000000000000000000000000000000000000000000000000000000000, 11878299857000000000000000000000000000000000000000000000000000000000000000000000000000000000, 11877126258700000000000000000000000000000000000000000000000000000000000000000000000000000000, 11875956897900000000000000000000000000000000000000000000000000000000000000000000000000000000, 11874791639200000000000000000000000000000000000000000000000000000000000000000000000000000000, 11873630341300000000000000000000000000000000000000000000000000000000000000000000000000000000, 11872472861200000000000000000000000000000000000000000000000000000000000000000000000000000000, 11871319056700000000000000000000000000000000000000000000000000000000000000000000000000000000, 11870168788400000000000000000000000000000000000000000000000000000000000000000000000000000000, 11869021920900000000000000000000000000000000000000000000000000000000000000000000000000000000, 11867878323800000000000000000000000000000000000000000000000000000000000000000000000000000000, 11866737871500000000000000000000000000000000000000000000000000000000000000000000000000000000, 11865600444300000000000000000000000000000000000000000000000000000000000000000000000000000000, 11864465927600000000000000000000000000000000000000000000000000000000000000000000000000000000, 11863334212600000000000000000000000000000000000000000000000000000000000000000000000000000000, 11862205195400000000000000000000000000000000000000000000000000000000000000000000000000000000, 11861078777500000000000000000000000000000000000000000000000000000000000000000000000000000000, 11859954865300000000000000000000000000000000000000000000000000000000000000000000000000000000, 11858833369800000000000000000000000000000000000000000000000000000000000000000000000000000000]),
  (627094388778000, [11876169111000000000000000000000000000000000000000000000000000000000000000000000000000000000, 11874321880500000000000000000000000000000000000000000000000000000000000000000000000000000000, 11873943997800000000000000000000000000000000000000000000000000000000000000000000000000000000, 11873507597700000000000000000000000000000000000000000000000000000000000000000000000000000000, 11872834477600000000000000000000000000000000000000000000000000000000000000000000000000000000, 11871971339200000000000000000000000000000000000000000000000000000000000000000000000000000000, 11870979817400000000000000000000000000000000000000000000000000000000000000000000000000000000, 11869905713900000000000000000000000000000000000000000000000000000000000000000000000000000000, 11868779620700000000000000000000000000000000000000000000000000000000000000000000000000000000, 11867621417300000000000000000000000000000000000000000000000000000000000000000000000000000000, 11866443968300000000000000000000000000000000000000000000000000000000000000000000000000000000, 11865255626700000000000000000000000000000000000000000000000000000000000000000000000000000000, 11864061844200000000000000000000000000000000000000000000000000000000000000000000000000000000, 11862866192500000000000000000000000000000000000000000000000000000000000000000000000000000000, 11861671012100000000000000000000000000000000000000000000000000000000000000000000000000000000, 11860477829300000000000000000000000000000000000000000000000000000000000000000000000000000000, 11859287625600000000000000000000000000000000000000000000000000000000000000000000000000000000, 11858101015800000000000000000000000000000000000000000000000000000000000000000000000000000000, 11856918365800000000000000000000000000000000000000000000000000000000000000000000000000000000, 11855739872000000000000000000000000000000000000000000000000000000000000000000000000000000000, 11854565615400000000000000000000000000000000000000000000000000000000000000000000000000000000, 11853395599000000000000000000000000000000000000000000000000000000000000000000000000000000000, 11852229773100000000000000000000000000000000000000000000000000000000000000000000000000000000, 11851068053400000000000000000000000000000000000000000000000000000000000000000000000000000000, 11849910333600000000000000000000000000000000000000000000000000000000000000000000000000000000, 11848756493900000000000000000000000000000000000000000000000000000000000000000000000000000000, 11847606407200000000000000000000000000000000000000000000000000000000000000000000000000000000, 11846459943300000000000000000000000000000000000000000000000000000000000000000000000000000000, 11845316971900000000000000000000000000000000000000000000000000000000000000000000000000000000, 11844177364700000000000000000000000000000000000000000000000000000000000000000000000000000000, 11843040996300000000000000000000000000000000000000000000000000000000000000000000000000000000, 11841907745600000000000000000000000000000000000000000000000000000000000000000000000000000000, 11840777496000000000000000000000000000000000000000000000000000000000000000000000000000000000, 11839650135500000000000000000000000000000000000000000000000000000000000000000000000000000000, 11838525557300000000000000000000000000000000000000000000000000000000000000000000000000000000, 11837403659400000000000000000000000000000000000000000000000000000000000000000000000000000000, 11836284344700000000000000000000000000000000000000000000000000000000000000000000000000000000, 11835167520700000000000000000000000000000000000000000000000000000000000000000000000000000000, 11834053099700000000000000000000000000000000000000000000000000000000000000000000000000000000, 11832940997900000000000000000000000000000000000000000000000000000000000000000000000000000000]),
  (629198396794000, [11849146843800000000000000000000000000000000000000000000000000000000000000000000000000000000, 11847337444900000000000000000000000000000000000000000000000000000000000000000000000000000000, 11846987598600000000000000000000000000000000000000000000000000000000000000000000000000000000, 11846576615400000000000000000000000000000000000000000000000000000000000000000000000000000000, 11845927642000000000000000000000000000000000000000000000000000000000000000000000000000000000, 11845087563400000000000000000000000000000000000000000000000000000000000000000000000000000000, 11844118042200000000000000000000000000000000000000000000000000000000000000000000000000000000, 11843064916300000000000000000000000000000000000000000000000000000000000000000000000000000000, 11841958838600000000000000000000000000000000000000000000000000000000000000000000000000000000, 11840819764200000000000000000000000000000000000000000000000000000000000000000000000000000000, 11839660637700000000000000000000000000000000000000000000000000000000000000000000000000000000, 11838489889200000000000000000000000000000000000000000000000000000000000000000000000000000000, 11837313041400000000000000000000000000000000000000000000000000000000000000000000000000000000, 11836133728600000000000000000000000000000000000000000000000000000000000000000000000000000000, 11834954347000000000000000000000000000000000000000000000000000000000000000000000000000000000, 11833776471100000000000000000000000000000000000000000000000000000000000000000000000000000000, 11832601125000000000000000000000000000000000000000000000000000000000000000000000000000000000, 11831428960900000000000000000000000000000000000000000000000000000000000000000000000000000000, 11830260377500000000000000000000000000000000000000000000000000000000000000000000000000000000, 11829095600500000000000000000000000000000000000000000000000000000000000000000000000000000000, 11827934737100000000000000000000000000000000000000000000000000000000000000000000000000000000, 11826777813600000000000000000000000000000000000000000000000000000000000000000000000000000000, 11825624801500000000000000000000000000000000000000000000000000000000000000000000000000000000, 11824475635600000000000000000000000000000000000000000000000000000000000000000000000000000000, 11823330227000000000000000000000000000000000000000000000000000000000000000000000000000000000, 11822188471500000000000000000000000000000000000000000000000000000000000000000000000000000000, 11821050256600000000000000000000000000000000000000000000000000000000000000000000000000000000, 11819915465300000000000000000000000000000000000000000000000000000000000000000000000000000000, 11818783979400000000000000000000000000000000000000000000000000000000000000000000000000000000, 11817655681900000000000000000000000000000000000000000000000000000000000000000000000000000000, 11816530457700000000000000000000000000000000000000000000000000000000000000000000000000000000, 11815408195300000000000000000000000000000000000000000000000000000000000000000000000000000000, 11814288786800000000000000000000000000000000000000000000000000000000000000000000000000000000, 11813172128800000000000000000000000000000000000000000000000000000000000000000000000000000000, 11812058122000000000000000000000000000000000000000000000000000000000000000000000000000000000, 11810946671700000000000000000000000000000000000000000000000000000000000000000000000000000000, 11809837687400000000000000000000000000000000000000000000000000000000000000000000000000000000, 11808731083000000000000000000000000000000000000000000000000000000000000000000000000000000000, 11807626776600000000000000000000000000000000000000000000000000000000000000000000000000000000, 11806524690000000000000000000000000000000000000000000000000000000000000000000000000000000000])]
noncomputable def ttSpec12 : List (Nat × List Nat) := [
  (631302404810000, [11821563967800000000000000000000000000000000000000000000000000000000000000000000000000000000, 11819791650000000000000000000000000000000000000000000000000000000000000000000000000000000000, 11819471227000000000000000000000000000000000000000000000000000000000000000000000000000000000, 11819087018300000000000000000000000000000000000000000000000000000000000000000000000000000000, 11818463212800000000000000000000000000000000000000000000000000000000000000000000000000000000, 11817647022900000000000000000000000000000000000000000000000000000000000000000000000000000000, 11816700257000000000000000000000000000000000000000000000000000000000000000000000000000000000, 11815668845100000000000000000000000000000000000000000000000000000000000000000000000000000000, 11814583521000000000000000000000000000000000000000000000000000000000000000000000000000000000, 11813464320800000000000000000000000000000000000000000000000000000000000000000000000000000000, 11812324268200000000000000000000000000000000000000000000000000000000000000000000000000000000, 11811171868200000000000000000000000000000000000000000000000000000000000000000000000000000000, 11810012711400000000000000000000000000000000000000000000000000000000000000000000000000000000, 11808850492900000000000000000000000000000000000000000000000000000000000000000000000000000000, 11807687662200000000000000000000000000000000000000000000000000000000000000000000000000000000, 11806525841200000000000000000000000000000000000000000000000000000000000000000000000000000000, 11805366095500000000000000000000000000000000000000000000000000000000000000000000000000000000, 11804209114100000000000000000000000000000000000000000000000000000000000000000000000000000000, 11803055328400000000000000000000000000000000000000000000000000000000000000000000000000000000, 11801904993400000000000000000000000000000000000000000000000000000000000000000000000000000000, 11800758242500000000000000000000000000000000000000000000000000000000000000000000000000000000, 11799615125600000000000000000000000000000000000000000000000000000000000000000000000000000000, 11798475635400000000000000000000000000000000000000000000000000000000000000000000000000000000, 11797339726300000000000000000000000000000000000000000000000000000000000000000000000000000000, 11796207326800000000000000000000000000000000000000000000000000000000000000000000000000000000, 11795078348800000000000000000000000000000000000000000000000000000000000000000000000000000000, 11793952694600000000000000000000000000000000000000000000000000000000000000000000000000000000, 11792830260600000000000000000000000000000000000000000000000000000000000000000000000000000000, 11791710941100000000000000000000000000000000000000000000000000000000000000000000000000000000, 11790594630300000000000000000000000000000000000000000000000000000000000000000000000000000000, 11789481223900000000000000000000000000000000000000000000000000000000000000000000000000000000, 11788370620100000000000000000000000000000000000000000000000000000000000000000000000000000000, 11787262720200000000000000000000000000000000000000000000000000000000000000000000000000000000, 11786157429000000000000000000000000000000000000000000000000000000000000000000000000000000000, 11785054655300000000000000000000000000000000000000000000000000000000000000000000000000000000, 11783954311600000000000000000000000000000000000000000000000000000000000000000000000000000000, 11782856314300000000000000000000000000000000000000000000000000000000000000000000000000000000, 11781760583800000000000000000000000000000000000000000000000000000000000000000000000000000000, 11780667044200000000000000000000000000000000000000000000000000000000000000000000000000000000, 11779575623000000000000000000000000000000000000000000000000000000000000000000000000000000000]),
  (633406412826000, [11793410937000000000000000000000000000000000000000000000000000000000000000000000000000000000, 11791675032500000000000000000000000000000000000000000000000000000000000000000000000000000000, 11791385658600000000000000000000000000000000000000000000000000000000000000000000000000000000, 11791029630300000000000000000000000000000000000000000000000000000000000000000000000000000000, 11790431967700000000000000000000000000000000000000000000000000000000000000000000000000000000, 11789640432600000000000000000000000000000000000000000000000000000000000000000000000000000000, 11788717126800000000000000000000000000000000000000000000000000000000000000000000000000000000, 11787708133100000000000000000000000000000000000000000000000000000000000000000000000000000000, 11786644285000000000000000000000000000000000000000000000000000000000000000000000000000000000, 11785545700800000000000000000000000000000000000000000000000000000000000000000000000000000000, 11784425479700000000000000000000000000000000000000000000000000000000000000000000000000000000, 11783292196200000000000000000000000000000000000000000000000000000000000000000000000000000000, 11782151504200000000000000000000000000000000000000000000000000000000000000000000000000000000, 11781007155600000000000000000000000000000000000000000000000000000000000000000000000000000000, 11779861650900000000000000000000000000000000000000000000000000000000000000000000000000000000, 11778716657000000000000000000000000000000000000000000000000000000000000000000000000000000000, 11777573279900000000000000000000000000000000000000000000000000000000000000000000000000000000, 11776432244500000000000000000000000000000000000000000000000000000000000000000000000000000000, 11775294014600000000000000000000000000000000000000000000000000000000000000000000000000000000, 11774158874200000000000000000000000000000000000000000000000000000000000000000000000000000000, 11773026982900000000000000000000000000000000000000000000000000000000000000000000000000000000, 11771898414300000000000000000000000000000000000000000000000000000000000000000000000000000000, 11770773182700000000000000000000000000000000000000000000000000000000000000000000000000000000, 11769651261800000000000000000000000000000000000000000000000000000000000000000000000000000000, 11768532598200000000000000000000000000000000000000000000000000000000000000000000000000000000, 11767417120100000000000000000000000000000000000000000000000000000000000000000000000000000000, 11766304744500000000000000000000000000000000000000000000000000000000000000000000000000000000, 11765195381700000000000000000000000000000000000000000000000000000000000000000000000000000000, 11764088938600000000000000000000000000000000000000000000000000000000000000000000000000000000, 11762985321100000000000000000000000000000000000000000000000000000000000000000000000000000000, 11761884435600000000000000000000000000000000000000000000000000000000000000000000000000000000, 11760786190300000000000000000000000000000000000000000000000000000000000000000000000000000000, 11759690495700000000000000000000000000000000000000000000000000000000000000000000000000000000, 11758597265300000000000000000000000000000000000000000000000000000000000000000000000000000000, 11757506415900000000000000000000000000000000000000000000000000000000000000000000000000000000, 11756417867400000000000000000000000000000000000000000000000000000000000000000000000000000000, 11755331543500000000000000000000000000000000000000000000000000000000000000000000000000000000, 11754247370900000000000000000000000000000000000000000000000000000000000000000000000000000000, 11753165279800000000000000000000000000000000000000000000000000000000000000000000000000000000, 11752085203700000000000000000000000000000000000000000000000000000000000000000000000000000000]),
  (635510420842000, [11764676726300000000000000000000000000000000000000000000000000000000000000000000000000000000, 11762978630800000000000000000000000000000000000000000000000000000000000000000000000000000000, 11762722179400000000000000000000000000000000000000000000000000000000000000000000000000000000, 11762395561500000000000000000000000000000000000000000000000000000000000000000000000000000000, 11761824853800000000000000000000000000000000000000000000000000000000000000000000000000000000, 11761058644400000000000000000000000000000000000000000000000000000000000000000000000000000000, 11760159456700000000000000000000000000000000000000000000000000000000000000000000000000000000, 11759173568600000000000000000000000000000000000000000000000000000000000000000000000000000000, 11758131919200000000000000000000000000000000000000000000000000000000000000000000000000000000, 11757054704300000000000000000000000000000000000000000000000000000000000000000000000000000000, 11755955090000000000000000000000000000000000000000000000000000000000000000000000000000000000, 11754841712900000000000000000000000000000000000000000000000000000000000000000000000000000000, 11753720283900000000000000000000000000000000000000000000000000000000000000000000000000000000, 11752594607000000000000000000000000000000000000000000000000000000000000000000000000000000000, 11751467230100000000000000000000000000000000000000000000000000000000000000000000000000000000, 11750339863100000000000000000000000000000000000000000000000000000000000000000000000000000000, 11749213650800000000000000000000000000000000000000000000000000000000000000000000000000000000, 11748089353200000000000000000000000000000000000000000000000000000000000000000000000000000000, 11746967466000000000000000000000000000000000000000000000000000000000000000000000000000000000, 11745848301800000000000000000000000000000000000000000000000000000000000000000000000000000000, 11744732046400000000000000000000000000000000000000000000000000000000000000000000000000000000, 11743618797300000000000000000000000000000000000000000000000000000000000000000000000000000000, 11742508590400000000000000000000000000000000000000000000000000000000000000000000000000000000, 11741401419200000000000000000000000000000000000000000000000000000000000000000000000000000000, 11740297248100000000000000000000000000000000000000000000000000000000000000000000000000000000, 11739196022100000000000000000000000000000000000000000000000000000000000000000000000000000000, 11738097673300000000000000000000000000000000000000000000000000000000000000000000000000000000, 11737002125900000000000000000000000000000000000000000000000000000000000000000000000000000000, 11735909299600000000000000000000000000000000000000000000000000000000000000000000000000000000, 11734819112200000000000000000000000000000000000000000000000000000000000000000000000000000000, 11733731481100000000000000000000000000000000000000000000000000000000000000000000000000000000, 11732646324500000000000000000000000000000000000000000000000000000000000000000000000000000000, 11731563562500000000000000000000000000000000000000000000000000000000000000000000000000000000, 11730483117400000000000000000000000000000000000000000000000000000000000000000000000000000000, 11729404914000000000000000000000000000000000000000000000000000000000000000000000000000000000, 11728328880000000000000000000000000000000000000000000000000000000000000000000000000000000000, 11727254946100000000000000000000000000000000000000000000000000000000000000000000000000000000, 11726183045800000000000000000000000000000000000000000000000000000000000000000000000000000000, 11725113115500000000000000000000000000000000000000000000000000000000000000000000000000000000, 11724045094700000000000000000000000000000000000000000000000000000000000000000000000000000000]),
  (637614428858000, [11735350403600000000000000000000000000000000000000000000000000000000000000000000000000000000, 11733694067200000000000000000000000000000000000000000000000000000000000000000000000000000000, 11733472389100000000000000000000000000000000000000000000000000000000000000000000000000000000, 11733176063200000000000000000000000000000000000000000000000000000000000000000000000000000000, 11732632915700000000000000000000000000000000000000000000000000000000000000000000000000000000, 11731892619800000000000000000000000000000000000000000000000000000000000000000000000000000000, 11731018189900000000000000000000000000000000000000000000000000000000000000000000000000000000, 11730056105200000000000000000000000000000000000000000000000000000000000000000000000000000000, 11729037401100000000000000000000000000000000000000000000000000000000000000000000000000000000, 11727982337800000000000000000000000000000000000000000000000000000000000000000000000000000000, 11726904137200000000000000000000000000000000000000000000000000000000000000000000000000000000, 11725811488500000000000000000000000000000000000000000000000000000000000000000000000000000000, 11724710152600000000000000000000000000000000000000000000000000000000000000000000000000000000, 11723603981000000000000000000000000000000000000000000000000000000000000000000000000000000000, 11722495565400000000000000000000000000000000000000000000000000000000000000000000000000000000, 11721386656400000000000000000000000000000000000000000000000000000000000000000000000000000000, 11720278436200000000000000000000000000000000000000000000000000000000000000000000000000000000, 11719171699100000000000000000000000000000000000000000000000000000000000000000000000000000000, 11718066972100000000000000000000000000000000000000000000000000000000000000000000000000000000, 11716964596600000000000000000000000000000000000000000000000000000000000000000000000000000000, 11715864784400000000000000000000000000000000000000000000000000000000000000000000000000000000, 11714767656900000000000000000000000000000000000000000000000000000000000000000000000000000000, 11713673271800000000000000000000000000000000000000000000000000000000000000000000000000000000, 11712581642600000000000000000000000000000000000000000000000000000000000000000000000000000000, 11711492752000000000000000000000000000000000000000000000000000000000000000000000000000000000, 11710406561500000000000000000000000000000000000000000000000000000000000000000000000000000000, 11709323018800000000000000000000000000000000000000000000000000000000000000000000000000000000, 11708242062200000000000000000000000000000000000000000000000000000000000000000000000000000000, 11707163624500000000000000000000000000000000000000000000000000000000000000000000000000000000, 11706087635400000000000000000000000000000000000000000000000000000000000000000000000000000000, 11705014023500000000000000000000000000000000000000000000000000000000000000000000000000000000, 11703942717400000000000000000000000000000000000000000000000000000000000000000000000000000000, 11702873646800000000000000000000000000000000000000000000000000000000000000000000000000000000, 11701806742800000000000000000000000000000000000000000000000000000000000000000000000000000000, 11700741938600000000000000000000000000000000000000000000000000000000000000000000000000000000, 11699679169700000000000000000000000000000000000000000000000000000000000000000000000000000000, 11698618374000000000000000000000000000000000000000000000000000000000000000000000000000000000, 11697559491800000000000000000000000000000000000000000000000000000000000000000000000000000000, 11696502466100000000000000000000000000000000000000000000000000000000000000000000000000000000, 11695447242100000000000000000000000000000000000000000000000000000000000000000000000000000000]),
  (639718436874000, [11705422770000000000000000000000000000000000000000000000000000000000000000000000000000000000, 11703813299100000000000000000000000000000000000000000000000000000000000000000000000000000000, 11703627844500000000000000000000000000000000000000000000000000000000000000000000000000000000, 11703362340200000000000000000000000000000000000000000000000000000000000000000000000000000000, 11702847226900000000000000000000000000000000000000000000000000000000000000000000000000000000, 11702133421200000000000000000000000000000000000000000000000000000000000000000000000000000000, 11701284423200000000000000000000000000000000000000000000000000000000000000000000000000000000, 11700346888100000000000000000000000000000000000000000000000000000000000000000000000000000000, 11699351925800000000000000000000000000000000000000000000000000000000000000000000000000000000, 11698319844300000000000000000000000000000000000000000000000000000000000000000000000000000000, 11697263909000000000000000000000000000000000000000000000000000000000000000000000000000000000, 11696192852700000000000000000000000000000000000000000000000000000000000000000000000000000000, 11695112479700000000000000000000000000000000000000000000000000000000000000000000000000000000, 11694026684300000000000000000000000000000000000000000000000000000000000000000000000000000000, 11692938099400000000000000000000000000000000000000000000000000000000000000000000000000000000, 11691848514200000000000000000000000000000000000000000000000000000000000000000000000000000000, 11690759147400000000000000000000000000000000000000000000000000000000000000000000000000000000, 11689670826900000000000000000000000000000000000000000000000000000000000000000000000000000000, 11688584110900000000000000000000000000000000000000000000000000000000000000000000000000000000, 11687499369200000000000000000000000000000000000000000000000000000000000000000000000000000000, 11686416840000000000000000000000000000000000000000000000000000000000000000000000000000000000, 11685336668700000000000000000000000000000000000000000000000000000000000000000000000000000000, 11684258935000000000000000000000000000000000000000000000000000000000000000000000000000000000, 11683183672500000000000000000000000000000000000000000000000000000000000000000000000000000000, 11682110882500000000000000000000000000000000000000000000000000000000000000000000000000000000, 11681040543400000000000000000000000000000000000000000000000000000000000000000000000000000000, 11679972618600000000000000000000000000000000000000000000000000000000000000000000000000000000, 11678907060600000000000000000000000000000000000000000000000000000000000000000000000000000000, 11677843815500000000000000000000000000000000000000000000000000000000000000000000000000000000, 11676782825300000000000000000000000000000000000000000000000000000000000000000000000000000000, 11675724029900000000000000000000000000000000000000000000000000000000000000000000000000000000, 11674667368400000000000000000000000000000000000000000000000000000000000000000000000000000000, 11673612780200000000000000000000000000000000000000000000000000000000000000000000000000000000, 11672560205500000000000000000000000000000000000000000000000000000000000000000000000000000000, 11671509586000000000000000000000000000000000000000000000000000000000000000000000000000000000, 11670460865200000000000000000000000000000000000000000000000000000000000000000000000000000000, 11669413988200000000000000000000000000000000000000000000000000000000000000000000000000000000, 11668368902300000000000000000000000000000000000000000000000000000000000000000000000000000000, 11667325557100000000000000000000000000000000000000000000000000000000000000000000000000000000, 11666283903800000000000000000000000000000000000000000000000000000000000000000000000000000000]),
  (641822444890000, [11674886636000000000000000000000000000000000000000000000000000000000000000000000000000000000, 11673328086900000000000000000000000000000000000000000000000000000000000000000000000000000000, 11673179734400000000000000000000000000000000000000000000000000000000000000000000000000000000, 11672945435000000000000000000000000000000000000000000000000000000000000000000000000000000000, 11672458878200000000000000000000000000000000000000000000000000000000000000000000000000000000, 11671772239300000000000000000000000000000000000000000000000000000000000000000000000000000000, 11670949447700000000000000000000000000000000000000000000000000000000000000000000000000000000, 11670037296400000000000000000000000000000000000000000000000000000000000000000000000000000000, 11669066947400000000000000000000000000000000000000000000000000000000000000000000000000000000, 11668058742500000000000000000000000000000000000000000000000000000000000000000000000000000000, 11667025980400000000000000000000000000000000000000000000000000000000000000000000000000000000, 11665977430200000000000000000000000000000000000000000000000000000000000000000000000000000000, 11664918935300000000000000000000000000000000000000000000000000000000000000000000000000000000, 11663854429200000000000000000000000000000000000000000000000000000000000000000000000000000000, 11662786583700000000000000000000000000000000000000000000000000000000000000000000000000000000, 11661717226100000000000000000000000000000000000000000000000000000000000000000000000000000000, 11660647610400000000000000000000000000000000000000000000000000000000000000000000000000000000, 11659578598200000000000000000000000000000000000000000000000000000000000000000000000000000000, 11658510778700000000000000000000000000000000000000000000000000000000000000000000000000000000, 11657444550600000000000000000000000000000000000000000000000000000000000000000000000000000000, 11656380178400000000000000000000000000000000000000000000000000000000000000000000000000000000, 11655317831700000000000000000000000000000000000000000000000000000000000000000000000000000000, 11654257612700000000000000000000000000000000000000000000000000000000000000000000000000000000, 11653199575400000000000000000000000000000000000000000000000000000000000000000000000000000000, 11652143739700000000000000000000000000000000000000000000000000000000000000000000000000000000, 11651090101400000000000000000000000000000000000000000000000000000000000000000000000000000000, 11650038639600000000000000000000000000000000000000000000000000000000000000000000000000000000, 11648989321400000000000000000000000000000000000000000000000000000000000000000000000000000000, 11647942106500000000000000000000000000000000000000000000000000000000000000000000000000000000, 11646896949200000000000000000000000000000000000000000000000000000000000000000000000000000000, 11645853800800000000000000000000000000000000000000000000000000000000000000000000000000000000, 11644812611300000000000000000000000000000000000000000000000000000000000000000000000000000000, 11643773329900000000000000000000000000000000000000000000000000000000000000000000000000000000, 11642735906100000000000000000000000000000000000000000000000000000000000000000000000000000000, 11641700290100000000000000000000000000000000000000000000000000000000000000000000000000000000, 11640666433500000000000000000000000000000000000000000000000000000000000000000000000000000000, 11639634288900000000000000000000000000000000000000000000000000000000000000000000000000000000, 11638603810700000000000000000000000000000000000000000000000000000000000000000000000000000000, 11637574954900000000000000000000000000000000000000000000000000000000000000000000000000000000, 11636547679300000000000000000000000000000000000000000000000000000000000000000000000000000000]),
  (643926452906000, [11643735429200000000000000000000000000000000000000000000000000000000000000000000000000000000, 11642229554000000000000000000000000000000000000000000000000000000000000000000000000000000000, 11642118806500000000000000000000000000000000000000000000000000000000000000000000000000000000, 11641916277200000000000000000000000000000000000000000000000000000000000000000000000000000000, 11641459053500000000000000000000000000000000000000000000000000000000000000000000000000000000, 11640800467300000000000000000000000000000000000000000000000000000000000000000000000000000000, 11640004814300000000000000000000000000000000000000000000000000000000000000000000000000000000, 11639119000600000000000000000000000000000000000000000000000000000000000000000000000000000000, 11638174230200000000000000000000000000000000000000000000000000000000000000000000000000000000, 11637190872500000000000000000000000000000000000000000000000000000000000000000000000000000000, 11636182255200000000000000000000000000000000000000000000000000000000000000000000000000000000, 11635157180500000000000000000000000000000000000000000000000000000000000000000000000000000000, 11634121527900000000000000000000000000000000000000000000000000000000000000000000000000000000, 11633079269200000000000000000000000000000000000000000000000000000000000000000000000000000000, 11632033114300000000000000000000000000000000000000000000000000000000000000000000000000000000, 11630984927700000000000000000000000000000000000000000000000000000000000000000000000000000000, 11629935999400000000000000000000000000000000000000000000000000000000000000000000000000000000, 11628887224500000000000000000000000000000000000000000000000000000000000000000000000000000000, 11627839223700000000000000000000000000000000000000000000000000000000000000000000000000000000, 11626792424700000000000000000000000000000000000000000000000000000000000000000000000000000000, 11625747119000000000000000000000000000000000000000000000000000000000000000000000000000000000, 11624703500800000000000000000000000000000000000000000000000000000000000000000000000000000000, 11623661694900000000000000000000000000000000000000000000000000000000000000000000000000000000, 11622621776000000000000000000000000000000000000000000000000000000000000000000000000000000000, 11621583783100000000000000000000000000000000000000000000000000000000000000000000000000000000, 11620547729600000000000000000000000000000000000000000000000000000000000000000000000000000000, 11619513610400000000000000000000000000000000000000000000000000000000000000000000000000000000, 11618481407800000000000000000000000000000000000000000000000000000000000000000000000000000000, 11617451094900000000000000000000000000000000000000000000000000000000000000000000000000000000, 11616422638800000000000000000000000000000000000000000000000000000000000000000000000000000000, 11615396002400000000000000000000000000000000000000000000000000000000000000000000000000000000, 11614371146500000000000000000000000000000000000000000000000000000000000000000000000000000000, 11613348030500000000000000000000000000000000000000000000000000000000000000000000000000000000, 11612326613100000000000000000000000000000000000000000000000000000000000000000000000000000000, 11611306853500000000000000000000000000000000000000000000000000000000000000000000000000000000, 11610288711200000000000000000000000000000000000000000000000000000000000000000000000000000000, 11609272146700000000000000000000000000000000000000000000000000000000000000000000000000000000, 11608257121500000000000000000000000000000000000000000000000000000000000000000000000000000000, 11607243598300000000000000000000000000000000000000000000000000000000000000000000000000000000, 11606231541000000000000000000000000000000000000000000000000000000000000000000000000000000000]),
  (646030460922000, [11611961609900000000000000000000000000000000000000000000000000000000000000000000000000000000, 11610508243500000000000000000000000000000000000000000000000000000000000000000000000000000000, 11610435650500000000000000000000000000000000000000000000000000000000000000000000000000000000, 11610265913900000000000000000000000000000000000000000000000000000000000000000000000000000000, 11609839188700000000000000000000000000000000000000000000000000000000000000000000000000000000, 11609209812000000000000000000000000000000000000000000000000000000000000000000000000000000000, 11608442416800000000000000000000000000000000000000000000000000000000000000000000000000000000, 11607584029100000000000000000000000000000000000000000000000000000000000000000000000000000000, 11606665904600000000000000000000000000000000000000000000000000000000000000000000000000000000, 11605708446000000000000000000000000000000000000000000000000000000000000000000000000000000000, 11604725012400000000000000000000000000000000000000000000000000000000000000000000000000000000, 11603724440000000000000000000000000000000000000000000000000000000000000000000000000000000000, 11602712645400000000000000000000000000000000000000000000000000000000000000000000000000000000, 11601693638600000000000000000000000000000000000000000000000000000000000000000000000000000000, 11600670168700000000000000000000000000000000000000000000000000000000000000000000000000000000, 11599644137900000000000000000000000000000000000000000000000000000000000000000000000000000000, 11598616872800000000000000000000000000000000000000000000000000000000000000000000000000000000, 11597589302800000000000000000000000000000000000000000000000000000000000000000000000000000000, 11596562080600000000000000000000000000000000000000000000000000000000000000000000000000000000, 11595535663600000000000000000000000000000000000000000000000000000000000000000000000000000000, 11594510370600000000000000000000000000000000000000000000000000000000000000000000000000000000, 11593486421000000000000000000000000000000000000000000000000000000000000000000000000000000000, 11592463962500000000000000000000000000000000000000000000000000000000000000000000000000000000, 11591443091200000000000000000000000000000000000000000000000000000000000000000000000000000000, 11590423865300000000000000000000000000000000000000000000000000000000000000000000000000000000, 11589406316000000000000000000000000000000000000000000000000000000000000000000000000000000000, 11588390454700000000000000000000000000000000000000000000000000000000000000000000000000000000, 11587376278700000000000000000000000000000000000000000000000000000000000000000000000000000000, 11586363775000000000000000000000000000000000000000000000000000000000000000000000000000000000, 11585352923400000000000000000000000000000000000000000000000000000000000000000000000000000000, 11584343699000000000000000000000000000000000000000000000000000000000000000000000000000000000, 11583336073400000000000000000000000000000000000000000000000000000000000000000000000000000000, 11582330016200000000000000000000000000000000000000000000000000000000000000000000000000000000, 11581325495900000000000000000000000000000000000000000000000000000000000000000000000000000000, 11580322480400000000000000000000000000000000000000000000000000000000000000000000000000000000, 11579320937500000000000000000000000000000000000000000000000000000000000000000000000000000000, 11578320835500000000000000000000000000000000000000000000000000000000000000000000000000000000, 11577322143100000000000000000000000000000000000000000000000000000000000000000000000000000000, 11576324830000000000000000000000000000000000000000000000000000000000000000000000000000000000, 11575328866600000000000000000000000000000000000000000000000000000000000000000000000000000000]),
  (648134468938000, [11579556565900000000000000000000000000000000000000000000000000000000000000000000000000000000, 11578154750500000000000000000000000000000000000000000000000000000000000000000000000000000000, 11578121237500000000000000000000000000000000000000000000000000000000000000000000000000000000, 11577985842700000000000000000000000000000000000000000000000000000000000000000000000000000000, 11577591168500000000000000000000000000000000000000000000000000000000000000000000000000000000, 11576992417900000000000000000000000000000000000000000000000000000000000000000000000000000000, 11576254578900000000000000000000000000000000000000000000000000000000000000000000000000000000, 11575424836300000000000000000000000000000000000000000000000000000000000000000000000000000000, 11574534525100000000000000000000000000000000000000000000000000000000000000000000000000000000, 11573604097200000000000000000000000000000000000000000000000000000000000000000000000000000000, 11572646952500000000000000000000000000000000000000000000000000000000000000000000000000000000, 11571671966500000000000000000000000000000000000000000000000000000000000000000000000000000000, 11570685096300000000000000000000000000000000000000000000000000000000000000000000000000000000, 11569690392900000000000000000000000000000000000000000000000000000000000000000000000000000000, 11568690645900000000000000000000000000000000000000000000000000000000000000000000000000000000, 11567687797500000000000000000000000000000000000000000000000000000000000000000000000000000000, 11566683211600000000000000000000000000000000000000000000000000000000000000000000000000000000, 11565677853200000000000000000000000000000000000000000000000000000000000000000000000000000000, 11564672407800000000000000000000000000000000000000000000000000000000000000000000000000000000, 11563667363500000000000000000000000000000000000000000000000000000000000000000000000000000000, 11562663066900000000000000000000000000000000000000000000000000000000000000000000000000000000, 11561659763100000000000000000000000000000000000000000000000000000000000000000000000000000000, 11560657623400000000000000000000000000000000000000000000000000000000000000000000000000000000, 11559656765400000000000000000000000000000000000000000000000000000000000000000000000000000000, 11558657267100000000000000000000000000000000000000000000000000000000000000000000000000000000, 11557659178000000000000000000000000000000000000000000000000000000000000000000000000000000000, 11556662525900000000000000000000000000000000000000000000000000000000000000000000000000000000, 11555667323600000000000000000000000000000000000000000000000000000000000000000000000000000000, 11554673572100000000000000000000000000000000000000000000000000000000000000000000000000000000, 11553681264500000000000000000000000000000000000000000000000000000000000000000000000000000000, 11552690387800000000000000000000000000000000000000000000000000000000000000000000000000000000, 11551700924800000000000000000000000000000000000000000000000000000000000000000000000000000000, 11550712855700000000000000000000000000000000000000000000000000000000000000000000000000000000, 11549726158500000000000000000000000000000000000000000000000000000000000000000000000000000000, 11548740810300000000000000000000000000000000000000000000000000000000000000000000000000000000, 11547756787300000000000000000000000000000000000000000000000000000000000000000000000000000000, 11546774065600000000000000000000000000000000000000000000000000000000000000000000000000000000, 11545792621500000000000000000000000000000000000000000000000000000000000000000000000000000000, 11544812431500000000000000000000000000000000000000000000000000000000000000000000000000000000, 11543833472600000000000000000000000000000000000000000000000000000000000000000000000000000000]),
  (650238476954000, [11546511840500000000000000000000000000000000000000000000000000000000000000000000000000000000, 11545160567200000000000000000000000000000000000000000000000000000000000000000000000000000000, 11545167459800000000000000000000000000000000000000000000000000000000000000000000000000000000, 11545068316400000000000000000000000000000000000000000000000000000000000000000000000000000000, 11544707501300000000000000000000000000000000000000000000000000000000000000000000000000000000, 11544140978600000000000000000000000000000000000000000000000000000000000000000000000000000000, 11543434134900000000000000000000000000000000000000000000000000000000000000000000000000000000, 11542634366900000000000000000000000000000000000000000000000000000000000000000000000000000000, 11541773125200000000000000000000000000000000000000000000000000000000000000000000000000000000, 11540870933200000000000000000000000000000000000000000000000000000000000000000000000000000000, 11539941244900000000000000000000000000000000000000000000000000000000000000000000000000000000, 11538992984000000000000000000000000000000000000000000000000000000000000000000000000000000000, 11538032153700000000000000000000000000000000000000000000000000000000000000000000000000000000, 11537062850400000000000000000000000000000000000000000000000000000000000000000000000000000000, 11536087907500000000000000000000000000000000000000000000000000000000000000000000000000000000, 11535109309000000000000000000000000000000000000000000000000000000000000000000000000000000000, 11534128458500000000000000000000000000000000000000000000000000000000000000000000000000000000, 11533146357600000000000000000000000000000000000000000000000000000000000000000000000000000000, 11532163726100000000000000000000000000000000000000000000000000000000000000000000000000000000, 11531181083300000000000000000000000000000000000000000000000000000000000000000000000000000000, 11530198804600000000000000000000000000000000000000000000000000000000000000000000000000000000, 11529217161500000000000000000000000000000000000000000000000000000000000000000000000000000000, 11528236349300000000000000000000000000000000000000000000000000000000000000000000000000000000, 11527256507500000000000000000000000000000000000000000000000000000000000000000000000000000000, 11526277734600000000000000000000000000000000000000000000000000000000000000000000000000000000, 11525300098300000000000000000000000000000000000000000000000000000000000000000000000000000000, 11524323643500000000000000000000000000000000000000000000000000000000000000000000000000000000, 11523348398600000000000000000000000000000000000000000000000000000000000000000000000000000000, 11522374379100000000000000000000000000000000000000000000000000000000000000000000000000000000, 11521401591200000000000000000000000000000000000000000000000000000000000000000000000000000000, 11520430034300000000000000000000000000000000000000000000000000000000000000000000000000000000, 11519459702700000000000000000000000000000000000000000000000000000000000000000000000000000000, 11518490587100000000000000000000000000000000000000000000000000000000000000000000000000000000, 11517522675400000000000000000000000000000000000000000000000000000000000000000000000000000000, 11516555953700000000000000000000000000000000000000000000000000000000000000000000000000000000, 11515590407100000000000000000000000000000000000000000000000000000000000000000000000000000000, 11514626019700000000000000000000000000000000000000000000000000000000000000000000000000000000, 11513662775100000000000000000000000000000000000000000000000000000000000000000000000000000000, 11512700657100000000000000000000000000000000000000000000000000000000000000000000000000000000, 11511739649200000000000000000000000000000000000000000000000000000000000000000000000000000000]),
  (652342484970000, [11512820024400000000000000000000000000000000000000000000000000000000000000000000000000000000, 11511518610000000000000000000000000000000000000000000000000000000000000000000000000000000000, 11511567419900000000000000000000000000000000000000000000000000000000000000000000000000000000, 11511506507300000000000000000000000000000000000000000000000000000000000000000000000000000000, 11511181426300000000000000000000000000000000000000000000000000000000000000000000000000000000, 11510648815500000000000000000000000000000000000000000000000000000000000000000000000000000000, 11509974493600000000000000000000000000000000000000000000000000000000000000000000000000000000, 11509206112200000000000000000000000000000000000000000000000000000000000000000000000000000000, 11508375269400000000000000000000000000000000000000000000000000000000000000000000000000000000, 11507502582200000000000000000000000000000000000000000000000000000000000000000000000000000000, 11506601573800000000000000000000000000000000000000000000000000000000000000000000000000000000, 11505681226900000000000000000000000000000000000000000000000000000000000000000000000000000000, 11504747598300000000000000000000000000000000000000000000000000000000000000000000000000000000, 11503804835300000000000000000000000000000000000000000000000000000000000000000000000000000000, 11502855819200000000000000000000000000000000000000000000000000000000000000000000000000000000, 11501902578700000000000000000000000000000000000000000000000000000000000000000000000000000000, 11500946559100000000000000000000000000000000000000000000000000000000000000000000000000000000, 11499988800700000000000000000000000000000000000000000000000000000000000000000000000000000000, 11499030058500000000000000000000000000000000000000000000000000000000000000000000000000000000, 11498070884200000000000000000000000000000000000000000000000000000000000000000000000000000000, 11497111682900000000000000000000000000000000000000000000000000000000000000000000000000000000, 11496152753000000000000000000000000000000000000000000000000000000000000000000000000000000000, 11495194314500000000000000000000000000000000000000000000000000000000000000000000000000000000, 11494236529400000000000000000000000000000000000000000000000000000000000000000000000000000000, 11493279516800000000000000000000000000000000000000000000000000000000000000000000000000000000, 11492323363200000000000000000000000000000000000000000000000000000000000000000000000000000000, 11491368131000000000000000000000000000000000000000000000000000000000000000000000000000000000, 11490413864300000000000000000000000000000000000000000000000000000000000000000000000000000000, 11489460593300000000000000000000000000000000000000000000000000000000000000000000000000000000, 11488508337800000000000000000000000000000000000000000000000000000000000000000000000000000000, 11487557109800000000000000000000000000000000000000000000000000000000000000000000000000000000, 11486606915000000000000000000000000000000000000000000000000000000000000000000000000000000000, 11485657754900000000000000000000000000000000000000000000000000000000000000000000000000000000, 11484709627600000000000000000000000000000000000000000000000000000000000000000000000000000000, 11483762528500000000000000000000000000000000000000000000000000000000000000000000000000000000, 11482816451400000000000000000000000000000000000000000000000000000000000000000000000000000000, 11481871388400000000000000000000000000000000000000000000000000000000000000000000000000000000, 11480927331100000000000000000000000000000000000000000000000000000000000000000000000000000000, 11479984270300000000000000000000000000000000000000000000000000000000000000000000000000000000, 11479042196200000000000000000000000000000000000000000000000000000000000000000000000000000000]),
  (654446492986000, [11478474486700000000000000000000000000000000000000000000000000000000000000000000000000000000, 11477223174900000000000000000000000000000000000000000000000000000000000000000000000000000000, 11477315382200000000000000000000000000000000000000000000000000000000000000000000000000000000, 11477294505600000000000000000000000000000000000000000000000000000000000000000000000000000000, 11477006944100000000000000000000000000000000000000000000000000000000000000000000000000000000, 11476509923400000000000000000000000000000000000000000000000000000000000000000000000000000000, 11475869688200000000000000000000000000000000000000000000000000000000000000000000000000000000, 11475134159100000000000000000000000000000000000000000000000000000000000000000000000000000000, 11474335100300000000000000000000000000000000000000000000000000000000000000000000000000000000, 11473493239600000000000000000000000000000000000000000000000000000000000000000000000000000000, 11472622183400000000000000000000000000000000000000000000000000000000000000000000000000000000, 11471730984400000000000000000000000000000000000000000000000000000000000000000000000000000000, 11470825762000000000000000000000000000000000000000000000000000000000000000000000000000000000, 11469910720500000000000000000000000000000000000000000000000000000000000000000000000000000000, 11468988793400000000000000000000000000000000000000000000000000000000000000000000000000000000, 11468062057800000000000000000000000000000000000000000000000000000000000000000000000000000000, 11467132003200000000000000000000000000000000000000000000000000000000000000000000000000000000, 11466199710300000000000000000000000000000000000000000000000000000000000000000000000000000000, 11465265970700000000000000000000000000000000000000000000000000000000000000000000000000000000, 11464331369800000000000000000000000000000000000000000000000000000000000000000000000000000000, 11463396343100000000000000000000000000000000000000000000000000000000000000000000000000000000, 11462461216600000000000000000000000000000000000000000000000000000000000000000000000000000000, 11461526235500000000000000000000000000000000000000000000000000000000000000000000000000000000, 11460591585100000000000000000000000000000000000000000000000000000000000000000000000000000000, 11459657405200000000000000000000000000000000000000000000000000000000000000000000000000000000, 11458723801600000000000000000000000000000000000000000000000000000000000000000000000000000000, 11457790854500000000000000000000000000000000000000000000000000000000000000000000000000000000, 11456858624000000000000000000000000000000000000000000000000000000000000000000000000000000000, 11455927155300000000000000000000000000000000000000000000000000000000000000000000000000000000, 11454996482100000000000000000000000000000000000000000000000000000000000000000000000000000000, 11454066628900000000000000000000000000000000000000000000000000000000000000000000000000000000, 11453137613400000000000000000000000000000000000000000000000000000000000000000000000000000000, 11452209448100000000000000000000000000000000000000000000000000000000000000000000000000000000, 11451282141000000000000000000000000000000000000000000000000000000000000000000000000000000000, 11450355697400000000000000000000000000000000000000000000000000000000000000000000000000000000, 11449430119600000000000000000000000000000000000000000000000000000000000000000000000000000000, 11448505408300000000000000000000000000000000000000000000000000000000000000000000000000000000, 11447581562800000000000000000000000000000000000000000000000000000000000000000000000000000000, 11446658581100000000000000000000000000000000000000000000000000000000000000000000000000000000, 11445736460400000000000000000000000000000000000000000000000000000000000000000000000000000000]),
  (656550501002000, [11443469057400000000000000000000000000000000000000000000000000000000000000000000000000000000, 11442269541800000000000000000000000000000000000000000000000000000000000000000000000000000000, 11442406516300000000000000000000000000000000000000000000000000000000000000000000000000000000, 11442427215000000000000000000000000000000000000000000000000000000000000000000000000000000000, 11442178800500000000000000000000000000000000000000000000000000000000000000000000000000000000, 11441718994200000000000000000000000000000000000000000000000000000000000000000000000000000000, 11441114415100000000000000000000000000000000000000000000000000000000000000000000000000000000, 11440413234800000000000000000000000000000000000000000000000000000000000000000000000000000000, 11439647384700000000000000000000000000000000000000000000000000000000000000000000000000000000, 11438837713100000000000000000000000000000000000000000000000000000000000000000000000000000000, 11437997922000000000000000000000000000000000000000000000000000000000000000000000000000000000, 11437137144600000000000000000000000000000000000000000000000000000000000000000000000000000000, 11436261571400000000000000000000000000000000000000000000000000000000000000000000000000000000, 11435375470200000000000000000000000000000000000000000000000000000000000000000000000000000000, 11434481832000000000000000000000000000000000000000000000000000000000000000000000000000000000, 11433582785500000000000000000000000000000000000000000000000000000000000000000000000000000000, 11432679867200000000000000000000000000000000000000000000000000000000000000000000000000000000, 11431774199800000000000000000000000000000000000000000000000000000000000000000000000000000000, 11430866613500000000000000000000000000000000000000000000000000000000000000000000000000000000, 11429957728000000000000000000000000000000000000000000000000000000000000000000000000000000000, 11429048010200000000000000000000000000000000000000000000000000000000000000000000000000000000, 11428137814500000000000000000000000000000000000000000000000000000000000000000000000000000000, 11427227412000000000000000000000000000000000000000000000000000000000000000000000000000000000, 11426317011300000000000000000000000000000000000000000000000000000000000000000000000000000000, 11425406773700000000000000000000000000000000000000000000000000000000000000000000000000000000, 11424496824800000000000000000000000000000000000000000000000000000000000000000000000000000000, 11423587262500000000000000000000000000000000000000000000000000000000000000000000000000000000, 11422678163500000000000000000000000000000000000000000000000000000000000000000000000000000000, 11421769588300000000000000000000000000000000000000000000000000000000000000000000000000000000, 11420861584300000000000000000000000000000000000000000000000000000000000000000000000000000000, 11419954189300000000000000000000000000000000000000000000000000000000000000000000000000000000, 11419047432900000000000000000000000000000000000000000000000000000000000000000000000000000000, 11418141338500000000000000000000000000000000000000000000000000000000000000000000000000000000, 11417235924900000000000000000000000000000000000000000000000000000000000000000000000000000000, 11416331206600000000000000000000000000000000000000000000000000000000000000000000000000000000, 11415427195300000000000000000000000000000000000000000000000000000000000000000000000000000000, 11414523900100000000000000000000000000000000000000000000000000000000000000000000000000000000, 11413621328000000000000000000000000000000000000000000000000000000000000000000000000000000000, 11412719484500000000000000000000000000000000000000000000000000000000000000000000000000000000, 11411818374000000000000000000000000000000000000000000000000000000000000000000000000000000000]),
  (658654509018000, [11407798761100000000000000000000000000000000000000000000000000000000000000000000000000000000, 11406653657900000000000000000000000000000000000000000000000000000000000000000000000000000000, 11406836658400000000000000000000000000000000000000000000000000000000000000000000000000000000, 11406900251000000000000000000000000000000000000000000000000000000000000000000000000000000000, 11406692467600000000000000000000000000000000000000000000000000000000000000000000000000000000, 11406271437600000000000000000000000000000000000000000000000000000000000000000000000000000000, 11405704071300000000000000000000000000000000000000000000000000000000000000000000000000000000, 11405038748600000000000000000000000000000000000000000000000000000000000000000000000000000000, 11404307556500000000000000000000000000000000000000000000000000000000000000000000000000000000, 11403531467000000000000000000000000000000000000000000000000000000000000000000000000000000000, 11402724286200000000000000000000000000000000000000000000000000000000000000000000000000000000, 11401895237600000000000000000000000000000000000000000000000000000000000000000000000000000000, 11401050590800000000000000000000000000000000000000000000000000000000000000000000000000000000, 11400194683600000000000000000000000000000000000000000000000000000000000000000000000000000000, 11399330569100000000000000000000000000000000000000000000000000000000000000000000000000000000, 11398460431400000000000000000000000000000000000000000000000000000000000000000000000000000000, 11397585856300000000000000000000000000000000000000000000000000000000000000000000000000000000, 11396708010600000000000000000000000000000000000000000000000000000000000000000000000000000000, 11395827764200000000000000000000000000000000000000000000000000000000000000000000000000000000, 11394945772500000000000000000000000000000000000000000000000000000000000000000000000000000000, 11394062534400000000000000000000000000000000000000000000000000000000000000000000000000000000, 11393178433600000000000000000000000000000000000000000000000000000000000000000000000000000000, 11392293767500000000000000000000000000000000000000000000000000000000000000000000000000000000, 11391408768600000000000000000000000000000000000000000000000000000000000000000000000000000000, 11390523620100000000000000000000000000000000000000000000000000000000000000000000000000000000, 11389638467500000000000000000000000000000000000000000000000000000000000000000000000000000000, 11388753426900000000000000000000000000000000000000000000000000000000000000000000000000000000, 11387868591900000000000000000000000000000000000000000000000000000000000000000000000000000000, 11386984038400000000000000000000000000000000000000000000000000000000000000000000000000000000, 11386099828100000000000000000000000000000000000000000000000000000000000000000000000000000000, 11385216011800000000000000000000000000000000000000000000000000000000000000000000000000000000, 11384332631400000000000000000000000000000000000000000000000000000000000000000000000000000000, 11383449721700000000000000000000000000000000000000000000000000000000000000000000000000000000, 11382567311900000000000000000000000000000000000000000000000000000000000000000000000000000000, 11381685426400000000000000000000000000000000000000000000000000000000000000000000000000000000, 11380804086000000000000000000000000000000000000000000000000000000000000000000000000000000000, 11379923308300000000000000000000000000000000000000000000000000000000000000000000000000000000, 11379043108600000000000000000000000000000000000000000000000000000000000000000000000000000000, 11378163499800000000000000000000000000000000000000000000000000000000000000000000000000000000, 11377284493200000000000000000000000000000000000000000000000000000000000000000000000000000000]),
  (660758517034000, [11371460743000000000000000000000000000000000000000000000000000000000000000000000000000000000, 11370372111900000000000000000000000000000000000000000000000000000000000000000000000000000000, 11370602242200000000000000000000000000000000000000000000000000000000000000000000000000000000, 11370709916100000000000000000000000000000000000000000000000000000000000000000000000000000000, 11370544156200000000000000000000000000000000000000000000000000000000000000000000000000000000, 11370163412200000000000000000000000000000000000000000000000000000000000000000000000000000000, 11369634793100000000000000000000000000000000000000000000000000000000000000000000000000000000, 11369006835000000000000000000000000000000000000000000000000000000000000000000000000000000000, 11368311760800000000000000000000000000000000000000000000000000000000000000000000000000000000, 11367570665200000000000000000000000000000000000000000000000000000000000000000000000000000000, 11366797464200000000000000000000000000000000000000000000000000000000000000000000000000000000, 11366001479100000000000000000000000000000000000000000000000000000000000000000000000000000000, 11365189065800000000000000000000000000000000000000000000000000000000000000000000000000000000, 11364364637600000000000000000000000000000000000000000000000000000000000000000000000000000000, 11363531314300000000000000000000000000000000000000000000000000000000000000000000000000000000, 11362691338400000000000000000000000000000000000000000000000000000000000000000000000000000000, 11361846347400000000000000000000000000000000000000000000000000000000000000000000000000000000, 11360997554200000000000000000000000000000000000000000000000000000000000000000000000000000000, 11360145869600000000000000000000000000000000000000000000000000000000000000000000000000000000, 11359291985500000000000000000000000000000000000000000000000000000000000000000000000000000000, 11358436433900000000000000000000000000000000000000000000000000000000000000000000000000000000, 11357579628100000000000000000000000000000000000000000000000000000000000000000000000000000000, 11356721892400000000000000000000000000000000000000000000000000000000000000000000000000000000, 11355863483800000000000000000000000000000000000000000000000000000000000000000000000000000000, 11355004607600000000000000000000000000000000000000000000000000000000000000000000000000000000, 11354145429600000000000000000000000000000000000000000000000000000000000000000000000000000000, 11353286084500000000000000000000000000000000000000000000000000000000000000000000000000000000, 11352426683000000000000000000000000000000000000000000000000000000000000000000000000000000000, 11351567316500000000000000000000000000000000000000000000000000000000000000000000000000000000, 11350708061300000000000000000000000000000000000000000000000000000000000000000000000000000000, 11349848981500000000000000000000000000000000000000000000000000000000000000000000000000000000, 11348990131400000000000000000000000000000000000000000000000000000000000000000000000000000000, 11348131557200000000000000000000000000000000000000000000000000000000000000000000000000000000, 11347273298900000000000000000000000000000000000000000000000000000000000000000000000000000000, 11346415390900000000000000000000000000000000000000000000000000000000000000000000000000000000, 11345557863100000000000000000000000000000000000000000000000000000000000000000000000000000000, 11344700742100000000000000000000000000000000000000000000000000000000000000000000000000000000, 11343844051000000000000000000000000000000000000000000000000000000000000000000000000000000000, 11342987810700000000000000000000000000000000000000000000000000000000000000000000000000000000, 11342132039500000000000000000000000000000000000000000000000000000000000000000000000000000000]),
  (662862525050000, [11334453860500000000000000000000000000000000000000000000000000000000000000000000000000000000, 11333422245000000000000000000000000000000000000000000000000000000000000000000000000000000000, 11333700380500000000000000000000000000000000000000000000000000000000000000000000000000000000, 11333853253800000000000000000000000000000000000000000000000000000000000000000000000000000000, 11333730858100000000000000000000000000000000000000000000000000000000000000000000000000000000, 11333391865300000000000000000000000000000000000000000000000000000000000000000000000000000000, 11332903496300000000000000000000000000000000000000000000000000000000000000000000000000000000, 11332314393300000000000000000000000000000000000000000000000000000000000000000000000000000000, 11331656894600000000000000000000000000000000000000000000000000000000000000000000000000000000, 11330952213000000000000000000000000000000000000000000000000000000000000000000000000000000000, 11330214377500000000000000000000000000000000000000000000000000000000000000000000000000000000, 11329452812500000000000000000000000000000000000000000000000000000000000000000000000000000000, 11328673965300000000000000000000000000000000000000000000000000000000000000000000000000000000, 11327882329600000000000000000000000000000000000000000000000000000000000000000000000000000000, 11327081095000000000000000000000000000000000000000000000000000000000000000000000000000000000, 11326272565500000000000000000000000000000000000000000000000000000000000000000000000000000000, 11325458432300000000000000000000000000000000000000000000000000000000000000000000000000000000, 11324639955700000000000000000000000000000000000000000000000000000000000000000000000000000000, 11323818088500000000000000000000000000000000000000000000000000000000000000000000000000000000, 11322993560300000000000000000000000000000000000000000000000000000000000000000000000000000000, 11322166936800000000000000000000000000000000000000000000000000000000000000000000000000000000, 11321338661500000000000000000000000000000000000000000000000000000000000000000000000000000000, 11320509085900000000000000000000000000000000000000000000000000000000000000000000000000000000, 11319678492000000000000000000000000000000000000000000000000000000000000000000000000000000000, 11318847107500000000000000000000000000000000000000000000000000000000000000000000000000000000, 11318015118800000000000000000000000000000000000000000000000000000000000000000000000000000000, 11317182679600000000000000000000000000000000000000000000000000000000000000000000000000000000, 11316349917600000000000000000000000000000000000000000000000000000000000000000000000000000000, 11315516940300000000000000000000000000000000000000000000000000000000000000000000000000000000, 11314683838500000000000000000000000000000000000000000000000000000000000000000000000000000000, 11313850689900000000000000000000000000000000000000000000000000000000000000000000000000000000, 11313017561400000000000000000000000000000000000000000000000000000000000000000000000000000000, 11312184510900000000000000000000000000000000000000000000000000000000000000000000000000000000, 11311351589000000000000000000000000000000000000000000000000000000000000000000000000000000000, 11310518840400000000000000000000000000000000000000000000000000000000000000000000000000000000, 11309686304500000000000000000000000000000000000000000000000000000000000000000000000000000000, 11308854016500000000000000000000000000000000000000000000000000000000000000000000000000000000, 11308022008000000000000000000000000000000000000000000000000000000000000000000000000000000000, 11307190307300000000000000000000000000000000000000000000000000000000000000000000000000000000, 11306358940400000000000000000000000000000000000000000000000000000000000000000000000000000000]),
  (664966533066000, [11296777120700000000000000000000000000000000000000000000000000000000000000000000000000000000, 11295802122400000000000000000000000000000000000000000000000000000000000000000000000000000000, 11296128965700000000000000000000000000000000000000000000000000000000000000000000000000000000, 11296328126300000000000000000000000000000000000000000000000000000000000000000000000000000000, 11296250398300000000000000000000000000000000000000000000000000000000000000000000000000000000, 11295954572800000000000000000000000000000000000000000000000000000000000000000000000000000000, 11295507912500000000000000000000000000000000000000000000000000000000000000000000000000000000, 11294959125400000000000000000000000000000000000000000000000000000000000000000000000000000000, 11294340645500000000000000000000000000000000000000000000000000000000000000000000000000000000, 11293673797200000000000000000000000000000000000000000000000000000000000000000000000000000000, 11292972722200000000000000000000000000000000000000000000000000000000000000000000000000000000, 11292246950500000000000000000000000000000000000000000000000000000000000000000000000000000000, 11291503024000000000000000000000000000000000000000000000000000000000000000000000000000000000, 11290745519500000000000000000000000000000000000000000000000000000000000000000000000000000000, 11289977699400000000000000000000000000000000000000000000000000000000000000000000000000000000, 11289201930700000000000000000000000000000000000000000000000000000000000000000000000000000000, 11288419960000000000000000000000000000000000000000000000000000000000000000000000000000000000, 11287633096300000000000000000000000000000000000000000000000000000000000000000000000000000000, 11286842335400000000000000000000000000000000000000000000000000000000000000000000000000000000, 11286048445200000000000000000000000000000000000000000000000000000000000000000000000000000000, 11285252025500000000000000000000000000000000000000000000000000000000000000000000000000000000, 11284453550600000000000000000000000000000000000000000000000000000000000000000000000000000000, 11283653399900000000000000000000000000000000000000000000000000000000000000000000000000000000, 11282851880300000000000000000000000000000000000000000000000000000000000000000000000000000000, 11282049242600000000000000000000000000000000000000000000000000000000000000000000000000000000, 11281245693800000000000000000000000000000000000000000000000000000000000000000000000000000000, 11280441406700000000000000000000000000000000000000000000000000000000000000000000000000000000, 11279636526700000000000000000000000000000000000000000000000000000000000000000000000000000000, 11278831177100000000000000000000000000000000000000000000000000000000000000000000000000000000, 11278025463700000000000000000000000000000000000000000000000000000000000000000000000000000000, 11277219477900000000000000000000000000000000000000000000000000000000000000000000000000000000, 11276413299200000000000000000000000000000000000000000000000000000000000000000000000000000000, 11275606997500000000000000000000000000000000000000000000000000000000000000000000000000000000, 11274800634200000000000000000000000000000000000000000000000000000000000000000000000000000000, 11273994264200000000000000000000000000000000000000000000000000000000000000000000000000000000, 11273187936500000000000000000000000000000000000000000000000000000000000000000000000000000000, 11272381695300000000000000000000000000000000000000000000000000000000000000000000000000000000, 11271575580500000000000000000000000000000000000000000000000000000000000000000000000000000000, 11270769628300000000000000000000000000000000000000000000000000000000000000000000000000000000, 11269963872000000000000000000000000000000000000000000000000000000000000000000000000000000000]),
  (667070541082000, [11258428544800000000000000000000000000000000000000000000000000000000000000000000000000000000, 11257510312200000000000000000000000000000000000000000000000000000000000000000000000000000000, 11257886689400000000000000000000000000000000000000000000000000000000000000000000000000000000, 11258133257700000000000000000000000000000000000000000000000000000000000000000000000000000000, 11258101466300000000000000000000000000000000000000000000000000000000000000000000000000000000, 11257850164500000000000000000000000000000000000000000000000000000000000000000000000000000000, 11257446615900000000000000000000000000000000000000000000000000000000000000000000000000000000, 11256939565200000000000000000000000000000000000000000000000000000000000000000000000000000000, 11256361525100000000000000000000000000000000000000000000000000000000000000000000000000000000, 11255733922300000000000000000000000000000000000000000000000000000000000000000000000000000000, 11255071007600000000000000000000000000000000000000000000000000000000000000000000000000000000, 11254382415600000000000000000000000000000000000000000000000000000000000000000000000000000000, 11253674783600000000000000000000000000000000000000000000000000000000000000000000000000000000, 11252952772700000000000000000000000000000000000000000000000000000000000000000000000000000000, 11252219719100000000000000000000000000000000000000000000000000000000000000000000000000000000, 11251478054100000000000000000000000000000000000000000000000000000000000000000000000000000000, 11250729580700000000000000000000000000000000000000000000000000000000000000000000000000000000, 11249975657400000000000000000000000000000000000000000000000000000000000000000000000000000000, 11249217323700000000000000000000000000000000000000000000000000000000000000000000000000000000, 11248455386200000000000000000000000000000000000000000000000000000000000000000000000000000000, 11247690479600000000000000000000000000000000000000000000000000000000000000000000000000000000, 11246923109200000000000000000000000000000000000000000000000000000000000000000000000000000000, 11246153682400000000000000000000000000000000000000000000000000000000000000000000000000000000, 11245382531600000000000000000000000000000000000000000000000000000000000000000000000000000000, 11244609930700000000000000000000000000000000000000000000000000000000000000000000000000000000, 11243836107900000000000000000000000000000000000000000000000000000000000000000000000000000000, 11243061255000000000000000000000000000000000000000000000000000000000000000000000000000000000, 11242285535200000000000000000000000000000000000000000000000000000000000000000000000000000000, 11241509088100000000000000000000000000000000000000000000000000000000000000000000000000000000, 11240732034400000000000000000000000000000000000000000000000000000000000000000000000000000000, 11239954479400000000000000000000000000000000000000000000000000000000000000000000000000000000, 11239176515500000000000000000000000000000000000000000000000000000000000000000000000000000000, 11238398224400000000000000000000000000000000000000000000000000000000000000000000000000000000, 11237619678600000000000000000000000000000000000000000000000000000000000000000000000000000000, 11236840943500000000000000000000000000000000000000000000000000000000000000000000000000000000, 11236062077600000000000000000000000000000000000000000000000000000000000000000000000000000000, 11235283134200000000000000000000000000000000000000000000000000000000000000000000000000000000, 11234504161500000000000000000000000000000000000000000000000000000000000000000000000000000000, 11233725204000000000000000000000000000000000000000000000000000000000000000000000000000000000, 11232946302100000000000000000000000000000000000000000000000000000000000000000000000000000000]),
  (669174549098000, [11219405350600000000000000000000000000000000000000000000000000000000000000000000000000000000, 11218545714500000000000000000000000000000000000000000000000000000000000000000000000000000000, 11218973003000000000000000000000000000000000000000000000000000000000000000000000000000000000, 11219268224900000000000000000000000000000000000000000000000000000000000000000000000000000000, 11219283614600000000000000000000000000000000000000000000000000000000000000000000000000000000, 11219078131100000000000000000000000000000000000000000000000000000000000000000000000000000000, 11218719038700000000000000000000000000000000000000000000000000000000000000000000000000000000, 11218255103200000000000000000000000000000000000000000000000000000000000000000000000000000000, 11217718899800000000000000000000000000000000000000000000000000000000000000000000000000000000, 11217131945800000000000000000000000000000000000000000000000000000000000000000000000000000000, 11216508594100000000000000000000000000000000000000000000000000000000000000000000000000000000, 11215858580000000000000000000000000000000000000000000000000000000000000000000000000000000000, 11215188634100000000000000000000000000000000000000000000000000000000000000000000000000000000, 11214503501300000000000000000000000000000000000000000000000000000000000000000000000000000000, 11213806591600000000000000000000000000000000000000000000000000000000000000000000000000000000, 11213100400900000000000000000000000000000000000000000000000000000000000000000000000000000000, 11212386789000000000000000000000000000000000000000000000000000000000000000000000000000000000, 11211667164100000000000000000000000000000000000000000000000000000000000000000000000000000000, 11210942609900000000000000000000000000000000000000000000000000000000000000000000000000000000, 11210213972300000000000000000000000000000000000000000000000000000000000000000000000000000000, 11209481920800000000000000000000000000000000000000000000000000000000000000000000000000000000, 11208746992200000000000000000000000000000000000000000000000000000000000000000000000000000000, 11208009622400000000000000000000000000000000000000000000000000000000000000000000000000000000, 11207270169200000000000000000000000000000000000000000000000000000000000000000000000000000000, 11206528930000000000000000000000000000000000000000000000000000000000000000000000000000000000, 11205786154000000000000000000000000000000000000000000000000000000000000000000000000000000000, 11205042052700000000000000000000000000000000000000000000000000000000000000000000000000000000, 11204296806900000000000000000000000000000000000000000000000000000000000000000000000000000000, 11203550572800000000000000000000000000000000000000000000000000000000000000000000000000000000, 11202803486100000000000000000000000000000000000000000000000000000000000000000000000000000000, 11202055666200000000000000000000000000000000000000000000000000000000000000000000000000000000, 11201307218300000000000000000000000000000000000000000000000000000000000000000000000000000000, 11200558236100000000000000000000000000000000000000000000000000000000000000000000000000000000, 11199808803700000000000000000000000000000000000000000000000000000000000000000000000000000000, 11199058996400000000000000000000000000000000000000000000000000000000000000000000000000000000, 11198308882800000000000000000000000000000000000000000000000000000000000000000000000000000000, 11197558525200000000000000000000000000000000000000000000000000000000000000000000000000000000, 11196807980400000000000000000000000000000000000000000000000000000000000000000000000000000000, 11196057300800000000000000000000000000000000000000000000000000000000000000000000000000000000, 11195306534700000000000000000000000000000000000000000000000000000000000000000000000000000000]),
  (671278557114000, [11179705021900000000000000000000000000000000000000000000000000000000000000000000000000000000, 11178907737400000000000000000000000000000000000000000000000000000000000000000000000000000000, 11179388116000000000000000000000000000000000000000000000000000000000000000000000000000000000, 11179733425300000000000000000000000000000000000000000000000000000000000000000000000000000000, 11179797236800000000000000000000000000000000000000000000000000000000000000000000000000000000, 11179638819000000000000000000000000000000000000000000000000000000000000000000000000000000000, 11179325481500000000000000000000000000000000000000000000000000000000000000000000000000000000, 11178906007000000000000000000000000000000000000000000000000000000000000000000000000000000000, 11178413018700000000000000000000000000000000000000000000000000000000000000000000000000000000, 11177868111600000000000000000000000000000000000000000000000000000000000000000000000000000000, 11177285730400000000000000000000000000000000000000000000000000000000000000000000000000000000, 11176675704900000000000000000000000000000000000000000000000000000000000000000000000000000000, 11176044855100000000000000000000000000000000000000000000000000000000000000000000000000000000, 11175398007400000000000000000000000000000000000000000000000000000000000000000000000000000000, 11174738644200000000000000000000000000000000000000000000000000000000000000000000000000000000, 11174069325700000000000000000000000000000000000000000000000000000000000000000000000000000000, 11173391968100000000000000000000000000000000000000000000000000000000000000000000000000000000, 11172708029800000000000000000000000000000000000000000000000000000000000000000000000000000000, 11172018638600000000000000000000000000000000000000000000000000000000000000000000000000000000, 11171324679700000000000000000000000000000000000000000000000000000000000000000000000000000000, 11170626857900000000000000000000000000000000000000000000000000000000000000000000000000000000, 11169925741500000000000000000000000000000000000000000000000000000000000000000000000000000000, 11169221795100000000000000000000000000000000000000000000000000000000000000000000000000000000, 11168515402200000000000000000000000000000000000000000000000000000000000000000000000000000000, 11167806883500000000000000000000000000000000000000000000000000000000000000000000000000000000, 11167096510000000000000000000000000000000000000000000000000000000000000000000000000000000000, 11166384512400000000000000000000000000000000000000000000000000000000000000000000000000000000, 11165671089700000000000000000000000000000000000000000000000000000000000000000000000000000000, 11164956414400000000000000000000000000000000000000000000000000000000000000000000000000000000, 11164240637800000000000000000000000000000000000000000000000000000000000000000000000000000000, 11163523892900000000000000000000000000000000000000000000000000000000000000000000000000000000, 11162806298400000000000000000000000000000000000000000000000000000000000000000000000000000000, 11162087959900000000000000000000000000000000000000000000000000000000000000000000000000000000, 11161368972700000000000000000000000000000000000000000000000000000000000000000000000000000000, 11160649423000000000000000000000000000000000000000000000000000000000000000000000000000000000, 11159929388800000000000000000000000000000000000000000000000000000000000000000000000000000000, 11159208941900000000000000000000000000000000000000000000000000000000000000000000000000000000, 11158488147600000000000000000000000000000000000000000000000000000000000000000000000000000000, 11157767066500000000000000000000000000000000000000000000000000000000000000000000000000000000, 11157045754400000000000000000000000000000000000000000000000000000000000000000000000000000000]),
  (673382565130000, [11139326609200000000000000000000000000000000000000000000000000000000000000000000000000000000, 11138596854600000000000000000000000000000000000000000000000000000000000000000000000000000000, 11139133090700000000000000000000000000000000000000000000000000000000000000000000000000000000, 11139530063000000000000000000000000000000000000000000000000000000000000000000000000000000000, 11139643551300000000000000000000000000000000000000000000000000000000000000000000000000000000, 11139533429600000000000000000000000000000000000000000000000000000000000000000000000000000000, 11139267125600000000000000000000000000000000000000000000000000000000000000000000000000000000, 11138893444000000000000000000000000000000000000000000000000000000000000000000000000000000000, 11138445044300000000000000000000000000000000000000000000000000000000000000000000000000000000, 11137943585100000000000000000000000000000000000000000000000000000000000000000000000000000000, 11137403592400000000000000000000000000000000000000000000000000000000000000000000000000000000, 11136834982100000000000000000000000000000000000000000000000000000000000000000000000000000000, 11136244658500000000000000000000000000000000000000000000000000000000000000000000000000000000, 11135637526100000000000000000000000000000000000000000000000000000000000000000000000000000000, 11135017137800000000000000000000000000000000000000000000000000000000000000000000000000000000, 11134386117100000000000000000000000000000000000000000000000000000000000000000000000000000000, 11133746435800000000000000000000000000000000000000000000000000000000000000000000000000000000, 11133099602100000000000000000000000000000000000000000000000000000000000000000000000000000000, 11132446788100000000000000000000000000000000000000000000000000000000000000000000000000000000, 11131788918300000000000000000000000000000000000000000000000000000000000000000000000000000000, 11131126732800000000000000000000000000000000000000000000000000000000000000000000000000000000, 11130460831700000000000000000000000000000000000000000000000000000000000000000000000000000000, 11129791708100000000000000000000000000000000000000000000000000000000000000000000000000000000, 11129119771600000000000000000000000000000000000000000000000000000000000000000000000000000000, 11128445366400000000000000000000000000000000000000000000000000000000000000000000000000000000, 11127768785000000000000000000000000000000000000000000000000000000000000000000000000000000000, 11127090277900000000000000000000000000000000000000000000000000000000000000000000000000000000, 11126410062000000000000000000000000000000000000000000000000000000000000000000000000000000000, 11125728326500000000000000000000000000000000000000000000000000000000000000000000000000000000, 11125045238000000000000000000000000000000000000000000000000000000000000000000000000000000000, 11124360943900000000000000000000000000000000000000000000000000000000000000000000000000000000, 11123675575700000000000000000000000000000000000000000000000000000000000000000000000000000000, 11122989251500000000000000000000000000000000000000000000000000000000000000000000000000000000, 11122302077900000000000000000000000000000000000000000000000000000000000000000000000000000000, 11121614151400000000000000000000000000000000000000000000000000000000000000000000000000000000, 11120925560400000000000000000000000000000000000000000000000000000000000000000000000000000000, 11120236385600000000000000000000000000000000000000000000000000000000000000000000000000000000, 11119546701200000000000000000000000000000000000000000000000000000000000000000000000000000000, 11118856575900000000000000000000000000000000000000000000000000000000000000000000000000000000, 11118166073100000000000000000000000000000000000000000000000000000000000000000000000000000000]),
  (675486573146000, [11098272017800000000000000000000000000000000000000000000000000000000000000000000000000000000, 11097615206900000000000000000000000000000000000000000000000000000000000000000000000000000000, 11098209984400000000000000000000000000000000000000000000000000000000000000000000000000000000, 11098660177700000000000000000000000000000000000000000000000000000000000000000000000000000000, 11098824614500000000000000000000000000000000000000000000000000000000000000000000000000000000, 11098764037500000000000000000000000000000000000000000000000000000000000000000000000000000000, 11098546059300000000000000000000000000000000000000000000000000000000000000000000000000000000, 11098219514200000000000000000000000000000000000000000000000000000000000000000000000000000000, 11097817088700000000000000000000000000000000000000000000000000000000000000000000000000000000, 11097360493500000000000000000000000000000000000000000000000000000000000000000000000000000000, 11096864324800000000000000000000000000000000000000000000000000000000000000000000000000000000, 11096338577100000000000000000000000000000000000000000000000000000000000000000000000000000000, 11095790233000000000000000000000000000000000000000000000000000000000000000000000000000000000, 11095224271300000000000000000000000000000000000000000000000000000000000000000000000000000000, 11094644313300000000000000000000000000000000000000000000000000000000000000000000000000000000, 11094053043900000000000000000000000000000000000000000000000000000000000000000000000000000000, 11093452490100000000000000000000000000000000000000000000000000000000000000000000000000000000, 11092844209300000000000000000000000000000000000000000000000000000000000000000000000000000000, 11092229417400000000000000000000000000000000000000000000000000000000000000000000000000000000, 11091609078400000000000000000000000000000000000000000000000000000000000000000000000000000000, 11090983967700000000000000000000000000000000000000000000000000000000000000000000000000000000, 11090354717300000000000000000000000000000000000000000000000000000000000000000000000000000000, 11089721848700000000000000000000000000000000000000000000000000000000000000000000000000000000, 11089085797800000000000000000000000000000000000000000000000000000000000000000000000000000000, 11088446932500000000000000000000000000000000000000000000000000000000000000000000000000000000, 11087805566600000000000000000000000000000000000000000000000000000000000000000000000000000000, 11087161970800000000000000000000000000000000000000000000000000000000000000000000000000000000, 11086516379900000000000000000000000000000000000000000000000000000000000000000000000000000000, 11085868999900000000000000000000000000000000000000000000000000000000000000000000000000000000, 11085220012700000000000000000000000000000000000000000000000000000000000000000000000000000000, 11084569580000000000000000000000000000000000000000000000000000000000000000000000000000000000, 11083917846600000000000000000000000000000000000000000000000000000000000000000000000000000000, 11083264942800000000000000000000000000000000000000000000000000000000000000000000000000000000, 11082610986500000000000000000000000000000000000000000000000000000000000000000000000000000000, 11081956085300000000000000000000000000000000000000000000000000000000000000000000000000000000, 11081300337200000000000000000000000000000000000000000000000000000000000000000000000000000000, 11080643832300000000000000000000000000000000000000000000000000000000000000000000000000000000, 11079986653600000000000000000000000000000000000000000000000000000000000000000000000000000000, 11079328878000000000000000000000000000000000000000000000000000000000000000000000000000000000, 11078670576600000000000000000000000000000000000000000000000000000000000000000000000000000000]),
  (677590581162000, [11056546833300000000000000000000000000000000000000000000000000000000000000000000000000000000, 11055966774900000000000000000000000000000000000000000000000000000000000000000000000000000000, 11056621929100000000000000000000000000000000000000000000000000000000000000000000000000000000, 11057126706900000000000000000000000000000000000000000000000000000000000000000000000000000000, 11057343374800000000000000000000000000000000000000000000000000000000000000000000000000000000, 11057333639400000000000000000000000000000000000000000000000000000000000000000000000000000000, 11057165323800000000000000000000000000000000000000000000000000000000000000000000000000000000, 11056887294400000000000000000000000000000000000000000000000000000000000000000000000000000000, 11056532258700000000000000000000000000000000000000000000000000000000000000000000000000000000, 11056121970400000000000000000000000000000000000000000000000000000000000000000000000000000000, 11055671087400000000000000000000000000000000000000000000000000000000000000000000000000000000, 11055189675600000000000000000000000000000000000000000000000000000000000000000000000000000000, 11054684791100000000000000000000000000000000000000000000000000000000000000000000000000000000, 11054161483200000000000000000000000000000000000000000000000000000000000000000000000000000000, 11053623439100000000000000000000000000000000000000000000000000000000000000000000000000000000, 11053073403500000000000000000000000000000000000000000000000000000000000000000000000000000000, 11052513458000000000000000000000000000000000000000000000000000000000000000000000000000000000, 11051945208400000000000000000000000000000000000000000000000000000000000000000000000000000000, 11051369914400000000000000000000000000000000000000000000000000000000000000000000000000000000, 11050788579300000000000000000000000000000000000000000000000000000000000000000000000000000000, 11050202013500000000000000000000000000000000000000000000000000000000000000000000000000000000, 11049610881000000000000000000000000000000000000000000000000000000000000000000000000000000000, 11049015732200000000000000000000000000000000000000000000000000000000000000000000000000000000, 11048417028800000000000000000000000000000000000000000000000000000000000000000000000000000000, 11047815162700000000000000000000000000000000000000000000000000000000000000000000000000000000, 11047210469400000000000000000000000000000000000000000000000000000000000000000000000000000000, 11046603239200000000000000000000000000000000000000000000000000000000000000000000000000000000, 11045993725400000000000000000000000000000000000000000000000000000000000000000000000000000000, 11045382150700000000000000000000000000000000000000000000000000000000000000000000000000000000, 11044768712400000000000000000000000000000000000000000000000000000000000000000000000000000000, 11044153586700000000000000000000000000000000000000000000000000000000000000000000000000000000, 11043536931400000000000000000000000000000000000000000000000000000000000000000000000000000000, 11042918889300000000000000000000000000000000000000000000000000000000000000000000000000000000, 11042299589900000000000000000000000000000000000000000000000000000000000000000000000000000000, 11041679151400000000000000000000000000000000000000000000000000000000000000000000000000000000, 11041057681700000000000000000000000000000000000000000000000000000000000000000000000000000000, 11040435280500000000000000000000000000000000000000000000000000000000000000000000000000000000, 11039812039500000000000000000000000000000000000000000000000000000000000000000000000000000000, 11039188043800000000000000000000000000000000000000000000000000000000000000000000000000000000, 11038563372500000000000000000000000000000000000000000000000000000000000000000000000000000000]),
  (679694589178000, [11014159681600000000000000000000000000000000000000000000000000000000000000000000000000000000, 11013656908400000000000000000000000000000000000000000000000000000000000000000000000000000000, 11014373087900000000000000000000000000000000000000000000000000000000000000000000000000000000, 11014933562600000000000000000000000000000000000000000000000000000000000000000000000000000000, 11015203759500000000000000000000000000000000000000000000000000000000000000000000000000000000, 11015246229800000000000000000000000000000000000000000000000000000000000000000000000000000000, 11015128978600000000000000000000000000000000000000000000000000000000000000000000000000000000, 11014900898000000000000000000000000000000000000000000000000000000000000000000000000000000000, 11014594711200000000000000000000000000000000000000000000000000000000000000000000000000000000, 11014232209500000000000000000000000000000000000000000000000000000000000000000000000000000000, 11013828106800000000000000000000000000000000000000000000000000000000000000000000000000000000, 11013392535100000000000000000000000000000000000000000000000000000000000000000000000000000000, 11012932619900000000000000000000000000000000000000000000000000000000000000000000000000000000, 11012453478300000000000000000000000000000000000000000000000000000000000000000000000000000000, 11011958861000000000000000000000000000000000000000000000000000000000000000000000000000000000, 11011451571800000000000000000000000000000000000000000000000000000000000000000000000000000000, 11010933745200000000000000000000000000000000000000000000000000000000000000000000000000000000, 11010407035600000000000000000000000000000000000000000000000000000000000000000000000000000000, 11009872745800000000000000000000000000000000000000000000000000000000000000000000000000000000, 11009331918400000000000000000000000000000000000000000000000000000000000000000000000000000000, 11008785399100000000000000000000000000000000000000000000000000000000000000000000000000000000, 11008233883500000000000000000000000000000000000000000000000000000000000000000000000000000000, 11007677951000000000000000000000000000000000000000000000000000000000000000000000000000000000, 11007118089500000000000000000000000000000000000000000000000000000000000000000000000000000000, 11006554714600000000000000000000000000000000000000000000000000000000000000000000000000000000, 11005988183600000000000000000000000000000000000000000000000000000000000000000000000000000000, 11005418806900000000000000000000000000000000000000000000000000000000000000000000000000000000, 11004846855800000000000000000000000000000000000000000000000000000000000000000000000000000000, 11004272570000000000000000000000000000000000000000000000000000000000000000000000000000000000, 11003696162300000000000000000000000000000000000000000000000000000000000000000000000000000000, 11003117823200000000000000000000000000000000000000000000000000000000000000000000000000000000, 11002537724000000000000000000000000000000000000000000000000000000000000000000000000000000000, 11001956019900000000000000000000000000000000000000000000000000000000000000000000000000000000, 11001372851700000000000000000000000000000000000000000000000000000000000000000000000000000000, 11000788348400000000000000000000000000000000000000000000000000000000000000000000000000000000, 11000202628300000000000000000000000000000000000000000000000000000000000000000000000000000000, 10999615800200000000000000000000000000000000000000000000000000000000000000000000000000000000, 10999027964700000000000000000000000000000000000000000000000000000000000000000000000000000000, 10998439215300000000000000000000000000000000000000000000000000000000000000000000000000000000, 10997849638900000000000000000000000000000000000000000000000000000000000000000000000000000000]),
  (681798597194000, [10971119721300000000000000000000000000000000000000000000000000000000000000000000000000000000, 10970691487700000000000000000000000000000000000000000000000000000000000000000000000000000000, 10971468547800000000000000000000000000000000000000000000000000000000000000000000000000000000, 10972085711000000000000000000000000000000000000000000000000000000000000000000000000000000000, 10972410779000000000000000000000000000000000000000000000000000000000000000000000000000000000, 10972506895800000000000000000000000000000000000000000000000000000000000000000000000000000000, 10972442183300000000000000000000000000000000000000000000000000000000000000000000000000000000, 10972265545000000000000000000000000000000000000000000000000000000000000000000000000000000000, 10972009716600000000000000000000000000000000000000000000000000000000000000000000000000000000, 10971696523600000000000000000000000000000000000000000000000000000000000000000000000000000000, 10971340732800000000000000000000000000000000000000000000000000000000000000000000000000000000, 10970952539300000000000000000000000000000000000000000000000000000000000000000000000000000000, 10970539134900000000000000000000000000000000000000000000000000000000000000000000000000000000, 10970105702600000000000000000000000000000000000000000000000000000000000000000000000000000000, 10969656055400000000000000000000000000000000000000000000000000000000000000000000000000000000, 10969193054600000000000000000000000000000000000000000000000000000000000000000000000000000000, 10968718887700000000000000000000000000000000000000000000000000000000000000000000000000000000, 10968235256700000000000000000000000000000000000000000000000000000000000000000000000000000000, 10967743507800000000000000000000000000000000000000000000000000000000000000000000000000000000, 10967244722500000000000000000000000000000000000000000000000000000000000000000000000000000000, 10966739781900000000000000000000000000000000000000000000000000000000000000000000000000000000, 10966229413400000000000000000000000000000000000000000000000000000000000000000000000000000000, 10965714225300000000000000000000000000000000000000000000000000000000000000000000000000000000, 10965194731800000000000000000000000000000000000000000000000000000000000000000000000000000000, 10964671372200000000000000000000000000000000000000000000000000000000000000000000000000000000, 10964144525900000000000000000000000000000000000000000000000000000000000000000000000000000000, 10963614522900000000000000000000000000000000000000000000000000000000000000000000000000000000, 10963081653200000000000000000000000000000000000000000000000000000000000000000000000000000000, 10962546173200000000000000000000000000000000000000000000000000000000000000000000000000000000, 10962008311300000000000000000000000000000000000000000000000000000000000000000000000000000000, 10961468272600000000000000000000000000000000000000000000000000000000000000000000000000000000, 10960926241500000000000000000000000000000000000000000000000000000000000000000000000000000000, 10960382385800000000000000000000000000000000000000000000000000000000000000000000000000000000, 10959836857900000000000000000000000000000000000000000000000000000000000000000000000000000000, 10959289797500000000000000000000000000000000000000000000000000000000000000000000000000000000, 10958741332900000000000000000000000000000000000000000000000000000000000000000000000000000000, 10958191582500000000000000000000000000000000000000000000000000000000000000000000000000000000, 10957640656000000000000000000000000000000000000000000000000000000000000000000000000000000000, 10957088654900000000000000000000000000000000000000000000000000000000000000000000000000000000, 10956535673900000000000000000000000000000000000000000000000000000000000000000000000000000000])]
noncomputable def ttSpec13 : List (Nat × List Nat) := [
  (683902605210000, [10927433715300000000000000000000000000000000000000000000000000000000000000000000000000000000, 10927076334200000000000000000000000000000000000000000000000000000000000000000000000000000000, 10927914281700000000000000000000000000000000000000000000000000000000000000000000000000000000, 10928589259900000000000000000000000000000000000000000000000000000000000000000000000000000000, 10928970634200000000000000000000000000000000000000000000000000000000000000000000000000000000, 10929121915700000000000000000000000000000000000000000000000000000000000000000000000000000000, 10929111284000000000000000000000000000000000000000000000000000000000000000000000000000000000, 10928987640100000000000000000000000000000000000000000000000000000000000000000000000000000000, 10928783729000000000000000000000000000000000000000000000000000000000000000000000000000000000, 10928521409500000000000000000000000000000000000000000000000000000000000000000000000000000000, 10928215499700000000000000000000000000000000000000000000000000000000000000000000000000000000, 10927876256400000000000000000000000000000000000000000000000000000000000000000000000000000000, 10927510936400000000000000000000000000000000000000000000000000000000000000000000000000000000, 10927124787000000000000000000000000000000000000000000000000000000000000000000000000000000000, 10926721682800000000000000000000000000000000000000000000000000000000000000000000000000000000, 10926304542100000000000000000000000000000000000000000000000000000000000000000000000000000000, 10925875604800000000000000000000000000000000000000000000000000000000000000000000000000000000, 10925436620600000000000000000000000000000000000000000000000000000000000000000000000000000000, 10924988978800000000000000000000000000000000000000000000000000000000000000000000000000000000, 10924533800000000000000000000000000000000000000000000000000000000000000000000000000000000000, 10924072000500000000000000000000000000000000000000000000000000000000000000000000000000000000, 10923604339800000000000000000000000000000000000000000000000000000000000000000000000000000000, 10923131454900000000000000000000000000000000000000000000000000000000000000000000000000000000, 10922653886400000000000000000000000000000000000000000000000000000000000000000000000000000000, 10922172097800000000000000000000000000000000000000000000000000000000000000000000000000000000, 10921686490000000000000000000000000000000000000000000000000000000000000000000000000000000000, 10921197413400000000000000000000000000000000000000000000000000000000000000000000000000000000, 10920705176100000000000000000000000000000000000000000000000000000000000000000000000000000000, 10920210051500000000000000000000000000000000000000000000000000000000000000000000000000000000, 10919712283900000000000000000000000000000000000000000000000000000000000000000000000000000000, 10919212092300000000000000000000000000000000000000000000000000000000000000000000000000000000, 10918709675100000000000000000000000000000000000000000000000000000000000000000000000000000000, 10918205212100000000000000000000000000000000000000000000000000000000000000000000000000000000, 10917698867600000000000000000000000000000000000000000000000000000000000000000000000000000000, 10917190792000000000000000000000000000000000000000000000000000000000000000000000000000000000, 10916681123800000000000000000000000000000000000000000000000000000000000000000000000000000000, 10916169990800000000000000000000000000000000000000000000000000000000000000000000000000000000, 10915657511500000000000000000000000000000000000000000000000000000000000000000000000000000000, 10915143796100000000000000000000000000000000000000000000000000000000000000000000000000000000, 10914628947000000000000000000000000000000000000000000000000000000000000000000000000000000000]),
  (686006613226000, [10883105147100000000000000000000000000000000000000000000000000000000000000000000000000000000, 10882817381700000000000000000000000000000000000000000000000000000000000000000000000000000000, 10883717288200000000000000000000000000000000000000000000000000000000000000000000000000000000, 10884451566300000000000000000000000000000000000000000000000000000000000000000000000000000000, 10884890814900000000000000000000000000000000000000000000000000000000000000000000000000000000, 10885098852100000000000000000000000000000000000000000000000000000000000000000000000000000000, 10885143899000000000000000000000000000000000000000000000000000000000000000000000000000000000, 10885074849500000000000000000000000000000000000000000000000000000000000000000000000000000000, 10884924457300000000000000000000000000000000000000000000000000000000000000000000000000000000, 10884714614100000000000000000000000000000000000000000000000000000000000000000000000000000000, 10884460189200000000000000000000000000000000000000000000000000000000000000000000000000000000, 10884171500000000000000000000000000000000000000000000000000000000000000000000000000000000000, 10883855867900000000000000000000000000000000000000000000000000000000000000000000000000000000, 10883518604300000000000000000000000000000000000000000000000000000000000000000000000000000000, 10883163644400000000000000000000000000000000000000000000000000000000000000000000000000000000, 10882793963600000000000000000000000000000000000000000000000000000000000000000000000000000000, 10882411854000000000000000000000000000000000000000000000000000000000000000000000000000000000, 10882019113000000000000000000000000000000000000000000000000000000000000000000000000000000000, 10881617173100000000000000000000000000000000000000000000000000000000000000000000000000000000, 10881207193800000000000000000000000000000000000000000000000000000000000000000000000000000000, 10880790127000000000000000000000000000000000000000000000000000000000000000000000000000000000, 10880366764100000000000000000000000000000000000000000000000000000000000000000000000000000000, 10879937771300000000000000000000000000000000000000000000000000000000000000000000000000000000, 10879503715400000000000000000000000000000000000000000000000000000000000000000000000000000000, 10879065083900000000000000000000000000000000000000000000000000000000000000000000000000000000, 10878622299800000000000000000000000000000000000000000000000000000000000000000000000000000000, 10878175733300000000000000000000000000000000000000000000000000000000000000000000000000000000, 10877725711300000000000000000000000000000000000000000000000000000000000000000000000000000000, 10877272524000000000000000000000000000000000000000000000000000000000000000000000000000000000, 10876816431100000000000000000000000000000000000000000000000000000000000000000000000000000000, 10876357666600000000000000000000000000000000000000000000000000000000000000000000000000000000, 10875896441900000000000000000000000000000000000000000000000000000000000000000000000000000000, 10875432949400000000000000000000000000000000000000000000000000000000000000000000000000000000, 10874967365000000000000000000000000000000000000000000000000000000000000000000000000000000000, 10874499850100000000000000000000000000000000000000000000000000000000000000000000000000000000, 10874030553200000000000000000000000000000000000000000000000000000000000000000000000000000000, 10873559611700000000000000000000000000000000000000000000000000000000000000000000000000000000, 10873087153000000000000000000000000000000000000000000000000000000000000000000000000000000000, 10872613295600000000000000000000000000000000000000000000000000000000000000000000000000000000, 10872138149800000000000000000000000000000000000000000000000000000000000000000000000000000000]),
  (688110621242000, [10838136559300000000000000000000000000000000000000000000000000000000000000000000000000000000, 10837921610100000000000000000000000000000000000000000000000000000000000000000000000000000000, 10838885893000000000000000000000000000000000000000000000000000000000000000000000000000000000, 10839681361900000000000000000000000000000000000000000000000000000000000000000000000000000000, 10840180188800000000000000000000000000000000000000000000000000000000000000000000000000000000, 10840446633000000000000000000000000000000000000000000000000000000000000000000000000000000000, 10840548996100000000000000000000000000000000000000000000000000000000000000000000000000000000, 10840536175200000000000000000000000000000000000000000000000000000000000000000000000000000000, 10840440935200000000000000000000000000000000000000000000000000000000000000000000000000000000, 10840285201300000000000000000000000000000000000000000000000000000000000000000000000000000000, 10840083893500000000000000000000000000000000000000000000000000000000000000000000000000000000, 10839847390100000000000000000000000000000000000000000000000000000000000000000000000000000000, 10839583076300000000000000000000000000000000000000000000000000000000000000000000000000000000, 10839296327100000000000000000000000000000000000000000000000000000000000000000000000000000000, 10838991139000000000000000000000000000000000000000000000000000000000000000000000000000000000, 10838670543900000000000000000000000000000000000000000000000000000000000000000000000000000000, 10838336886400000000000000000000000000000000000000000000000000000000000000000000000000000000, 10837992011400000000000000000000000000000000000000000000000000000000000000000000000000000000, 10837637395100000000000000000000000000000000000000000000000000000000000000000000000000000000, 10837274236000000000000000000000000000000000000000000000000000000000000000000000000000000000, 10836903521400000000000000000000000000000000000000000000000000000000000000000000000000000000, 10836526074900000000000000000000000000000000000000000000000000000000000000000000000000000000, 10836142591700000000000000000000000000000000000000000000000000000000000000000000000000000000, 10835753665200000000000000000000000000000000000000000000000000000000000000000000000000000000, 10835359806800000000000000000000000000000000000000000000000000000000000000000000000000000000, 10834961461600000000000000000000000000000000000000000000000000000000000000000000000000000000, 10834559019900000000000000000000000000000000000000000000000000000000000000000000000000000000, 10834152826900000000000000000000000000000000000000000000000000000000000000000000000000000000, 10833743189900000000000000000000000000000000000000000000000000000000000000000000000000000000, 10833330384400000000000000000000000000000000000000000000000000000000000000000000000000000000, 10832914658700000000000000000000000000000000000000000000000000000000000000000000000000000000, 10832496237700000000000000000000000000000000000000000000000000000000000000000000000000000000, 10832075326300000000000000000000000000000000000000000000000000000000000000000000000000000000, 10831652112100000000000000000000000000000000000000000000000000000000000000000000000000000000, 10831226767200000000000000000000000000000000000000000000000000000000000000000000000000000000, 10830799450400000000000000000000000000000000000000000000000000000000000000000000000000000000, 10830370308600000000000000000000000000000000000000000000000000000000000000000000000000000000, 10829939478000000000000000000000000000000000000000000000000000000000000000000000000000000000, 10829507085600000000000000000000000000000000000000000000000000000000000000000000000000000000, 10829073249700000000000000000000000000000000000000000000000000000000000000000000000000000000]),
  (690214629259000, [10792533761000000000000000000000000000000000000000000000000000000000000000000000000000000000, 10792398208800000000000000000000000000000000000000000000000000000000000000000000000000000000, 10793430086000000000000000000000000000000000000000000000000000000000000000000000000000000000, 10794288878100000000000000000000000000000000000000000000000000000000000000000000000000000000, 10794849078300000000000000000000000000000000000000000000000000000000000000000000000000000000, 10795175620100000000000000000000000000000000000000000000000000000000000000000000000000000000, 10795336959800000000000000000000000000000000000000000000000000000000000000000000000000000000, 10795382021100000000000000000000000000000000000000000000000000000000000000000000000000000000, 10795343586300000000000000000000000000000000000000000000000000000000000000000000000000000000, 10795243615200000000000000000000000000000000000000000000000000000000000000000000000000000000, 10795097078300000000000000000000000000000000000000000000000000000000000000000000000000000000, 10794914413500000000000000000000000000000000000000000000000000000000000000000000000000000000, 10794703070100000000000000000000000000000000000000000000000000000000000000000000000000000000, 10794468486600000000000000000000000000000000000000000000000000000000000000000000000000000000, 10794214720100000000000000000000000000000000000000000000000000000000000000000000000000000000, 10793944859800000000000000000000000000000000000000000000000000000000000000000000000000000000, 10793661302500000000000000000000000000000000000000000000000000000000000000000000000000000000, 10793365941200000000000000000000000000000000000000000000000000000000000000000000000000000000, 10793060295200000000000000000000000000000000000000000000000000000000000000000000000000000000, 10792745602600000000000000000000000000000000000000000000000000000000000000000000000000000000, 10792422886200000000000000000000000000000000000000000000000000000000000000000000000000000000, 10792093001700000000000000000000000000000000000000000000000000000000000000000000000000000000, 10791756673400000000000000000000000000000000000000000000000000000000000000000000000000000000, 10791414521200000000000000000000000000000000000000000000000000000000000000000000000000000000, 10791067080700000000000000000000000000000000000000000000000000000000000000000000000000000000, 10790714818800000000000000000000000000000000000000000000000000000000000000000000000000000000, 10790358146100000000000000000000000000000000000000000000000000000000000000000000000000000000, 10789997426200000000000000000000000000000000000000000000000000000000000000000000000000000000, 10789632983400000000000000000000000000000000000000000000000000000000000000000000000000000000, 10789265108800000000000000000000000000000000000000000000000000000000000000000000000000000000, 10788894065200000000000000000000000000000000000000000000000000000000000000000000000000000000, 10788520091000000000000000000000000000000000000000000000000000000000000000000000000000000000, 10788143403600000000000000000000000000000000000000000000000000000000000000000000000000000000, 10787764202200000000000000000000000000000000000000000000000000000000000000000000000000000000, 10787382669700000000000000000000000000000000000000000000000000000000000000000000000000000000, 10786998975100000000000000000000000000000000000000000000000000000000000000000000000000000000, 10786613274700000000000000000000000000000000000000000000000000000000000000000000000000000000, 10786225713900000000000000000000000000000000000000000000000000000000000000000000000000000000, 10785836427900000000000000000000000000000000000000000000000000000000000000000000000000000000, 10785445542900000000000000000000000000000000000000000000000000000000000000000000000000000000]),
  (692318637275000, [10746308924100000000000000000000000000000000000000000000000000000000000000000000000000000000, 10746259272100000000000000000000000000000000000000000000000000000000000000000000000000000000, 10747361737700000000000000000000000000000000000000000000000000000000000000000000000000000000, 10748285944500000000000000000000000000000000000000000000000000000000000000000000000000000000, 10748909324400000000000000000000000000000000000000000000000000000000000000000000000000000000, 10749297665100000000000000000000000000000000000000000000000000000000000000000000000000000000, 10749519648400000000000000000000000000000000000000000000000000000000000000000000000000000000, 10749624252000000000000000000000000000000000000000000000000000000000000000000000000000000000, 10749644284300000000000000000000000000000000000000000000000000000000000000000000000000000000, 10749601740800000000000000000000000000000000000000000000000000000000000000000000000000000000, 10749511641500000000000000000000000000000000000000000000000000000000000000000000000000000000, 10749384483400000000000000000000000000000000000000000000000000000000000000000000000000000000, 10749227778900000000000000000000000000000000000000000000000000000000000000000000000000000000, 10749047029600000000000000000000000000000000000000000000000000000000000000000000000000000000, 10748846353600000000000000000000000000000000000000000000000000000000000000000000000000000000, 10748628896900000000000000000000000000000000000000000000000000000000000000000000000000000000, 10748397109100000000000000000000000000000000000000000000000000000000000000000000000000000000, 10748152930900000000000000000000000000000000000000000000000000000000000000000000000000000000, 10747897925200000000000000000000000000000000000000000000000000000000000000000000000000000000, 10747633369400000000000000000000000000000000000000000000000000000000000000000000000000000000, 10747360321800000000000000000000000000000000000000000000000000000000000000000000000000000000, 10747079670400000000000000000000000000000000000000000000000000000000000000000000000000000000, 10746792168600000000000000000000000000000000000000000000000000000000000000000000000000000000, 10746498462800000000000000000000000000000000000000000000000000000000000000000000000000000000, 10746199112500000000000000000000000000000000000000000000000000000000000000000000000000000000, 10745894606800000000000000000000000000000000000000000000000000000000000000000000000000000000, 10745585376200000000000000000000000000000000000000000000000000000000000000000000000000000000, 10745271802800000000000000000000000000000000000000000000000000000000000000000000000000000000, 10744954227800000000000000000000000000000000000000000000000000000000000000000000000000000000, 10744632958100000000000000000000000000000000000000000000000000000000000000000000000000000000, 10744308270700000000000000000000000000000000000000000000000000000000000000000000000000000000, 10743980417700000000000000000000000000000000000000000000000000000000000000000000000000000000, 10743649628900000000000000000000000000000000000000000000000000000000000000000000000000000000, 10743316114900000000000000000000000000000000000000000000000000000000000000000000000000000000, 10742980069700000000000000000000000000000000000000000000000000000000000000000000000000000000, 10742641672300000000000000000000000000000000000000000000000000000000000000000000000000000000, 10742301088600000000000000000000000000000000000000000000000000000000000000000000000000000000, 10741958472800000000000000000000000000000000000000000000000000000000000000000000000000000000, 10741613968500000000000000000000000000000000000000000000000000000000000000000000000000000000, 10741267710000000000000000000000000000000000000000000000000000000000000000000000000000000000]),
  (694422645291000, [10699480349400000000000000000000000000000000000000000000000000000000000000000000000000000000, 10699519660500000000000000000000000000000000000000000000000000000000000000000000000000000000, 10700694615300000000000000000000000000000000000000000000000000000000000000000000000000000000, 10701686039100000000000000000000000000000000000000000000000000000000000000000000000000000000, 10702374336400000000000000000000000000000000000000000000000000000000000000000000000000000000, 10702826158400000000000000000000000000000000000000000000000000000000000000000000000000000000, 10703110444200000000000000000000000000000000000000000000000000000000000000000000000000000000, 10703276246500000000000000000000000000000000000000000000000000000000000000000000000000000000, 10703356407500000000000000000000000000000000000000000000000000000000000000000000000000000000, 10703372959300000000000000000000000000000000000000000000000000000000000000000000000000000000, 10703340970600000000000000000000000000000000000000000000000000000000000000000000000000000000, 10703270995700000000000000000000000000000000000000000000000000000000000000000000000000000000, 10703170609300000000000000000000000000000000000000000000000000000000000000000000000000000000, 10703045375800000000000000000000000000000000000000000000000000000000000000000000000000000000, 10702899473900000000000000000000000000000000000000000000000000000000000000000000000000000000, 10702736106400000000000000000000000000000000000000000000000000000000000000000000000000000000, 10702557775200000000000000000000000000000000000000000000000000000000000000000000000000000000, 10702366469200000000000000000000000000000000000000000000000000000000000000000000000000000000, 10702163794500000000000000000000000000000000000000000000000000000000000000000000000000000000, 10701951067700000000000000000000000000000000000000000000000000000000000000000000000000000000, 10701729382800000000000000000000000000000000000000000000000000000000000000000000000000000000, 10701499659700000000000000000000000000000000000000000000000000000000000000000000000000000000, 10701262681000000000000000000000000000000000000000000000000000000000000000000000000000000000, 10701019119200000000000000000000000000000000000000000000000000000000000000000000000000000000, 10700769558100000000000000000000000000000000000000000000000000000000000000000000000000000000, 10700514508500000000000000000000000000000000000000000000000000000000000000000000000000000000, 10700254421000000000000000000000000000000000000000000000000000000000000000000000000000000000, 10699989695900000000000000000000000000000000000000000000000000000000000000000000000000000000, 10699720691600000000000000000000000000000000000000000000000000000000000000000000000000000000, 10699447730300000000000000000000000000000000000000000000000000000000000000000000000000000000, 10699171103600000000000000000000000000000000000000000000000000000000000000000000000000000000, 10698891076900000000000000000000000000000000000000000000000000000000000000000000000000000000, 10698607892300000000000000000000000000000000000000000000000000000000000000000000000000000000, 10698321772200000000000000000000000000000000000000000000000000000000000000000000000000000000, 10698032921200000000000000000000000000000000000000000000000000000000000000000000000000000000, 10697741528500000000000000000000000000000000000000000000000000000000000000000000000000000000, 10697447769600000000000000000000000000000000000000000000000000000000000000000000000000000000, 10697151807400000000000000000000000000000000000000000000000000000000000000000000000000000000, 10696853794000000000000000000000000000000000000000000000000000000000000000000000000000000000, 10696553871600000000000000000000000000000000000000000000000000000000000000000000000000000000]),
  (696526653307000, [10652069352000000000000000000000000000000000000000000000000000000000000000000000000000000000, 10652196208300000000000000000000000000000000000000000000000000000000000000000000000000000000, 10653444233500000000000000000000000000000000000000000000000000000000000000000000000000000000, 10654504293900000000000000000000000000000000000000000000000000000000000000000000000000000000, 10655259126600000000000000000000000000000000000000000000000000000000000000000000000000000000, 10655776069600000000000000000000000000000000000000000000000000000000000000000000000000000000, 10656124297700000000000000000000000000000000000000000000000000000000000000000000000000000000, 10656352944300000000000000000000000000000000000000000000000000000000000000000000000000000000, 10656494889300000000000000000000000000000000000000000000000000000000000000000000000000000000, 10656572201300000000000000000000000000000000000000000000000000000000000000000000000000000000, 10656599995900000000000000000000000000000000000000000000000000000000000000000000000000000000, 10656588883800000000000000000000000000000000000000000000000000000000000000000000000000000000, 10656546500800000000000000000000000000000000000000000000000000000000000000000000000000000000, 10656478473300000000000000000000000000000000000000000000000000000000000000000000000000000000, 10656389040100000000000000000000000000000000000000000000000000000000000000000000000000000000, 10656281460600000000000000000000000000000000000000000000000000000000000000000000000000000000, 10656158288700000000000000000000000000000000000000000000000000000000000000000000000000000000, 10656021560900000000000000000000000000000000000000000000000000000000000000000000000000000000, 10655872926600000000000000000000000000000000000000000000000000000000000000000000000000000000, 10655713741400000000000000000000000000000000000000000000000000000000000000000000000000000000, 10655545134300000000000000000000000000000000000000000000000000000000000000000000000000000000, 10655368057200000000000000000000000000000000000000000000000000000000000000000000000000000000, 10655183321700000000000000000000000000000000000000000000000000000000000000000000000000000000, 10654991626400000000000000000000000000000000000000000000000000000000000000000000000000000000, 10654793578800000000000000000000000000000000000000000000000000000000000000000000000000000000, 10654589711500000000000000000000000000000000000000000000000000000000000000000000000000000000, 10654380495000000000000000000000000000000000000000000000000000000000000000000000000000000000, 10654166348000000000000000000000000000000000000000000000000000000000000000000000000000000000, 10653947645400000000000000000000000000000000000000000000000000000000000000000000000000000000, 10653724725100000000000000000000000000000000000000000000000000000000000000000000000000000000, 10653497893000000000000000000000000000000000000000000000000000000000000000000000000000000000, 10653267427700000000000000000000000000000000000000000000000000000000000000000000000000000000, 10653033583800000000000000000000000000000000000000000000000000000000000000000000000000000000, 10652796595100000000000000000000000000000000000000000000000000000000000000000000000000000000, 10652556677100000000000000000000000000000000000000000000000000000000000000000000000000000000, 10652314028900000000000000000000000000000000000000000000000000000000000000000000000000000000, 10652068835500000000000000000000000000000000000000000000000000000000000000000000000000000000, 10651821268700000000000000000000000000000000000000000000000000000000000000000000000000000000, 10651571488900000000000000000000000000000000000000000000000000000000000000000000000000000000, 10651319646100000000000000000000000000000000000000000000000000000000000000000000000000000000]),
  (698630661323000, [10604096662800000000000000000000000000000000000000000000000000000000000000000000000000000000, 10604306811100000000000000000000000000000000000000000000000000000000000000000000000000000000, 10605627653400000000000000000000000000000000000000000000000000000000000000000000000000000000, 10606757471900000000000000000000000000000000000000000000000000000000000000000000000000000000, 10607580334400000000000000000000000000000000000000000000000000000000000000000000000000000000, 10608163985000000000000000000000000000000000000000000000000000000000000000000000000000000000, 10608577770000000000000000000000000000000000000000000000000000000000000000000000000000000000, 10608870892200000000000000000000000000000000000000000000000000000000000000000000000000000000, 10609076266300000000000000000000000000000000000000000000000000000000000000000000000000000000, 10609215996100000000000000000000000000000000000000000000000000000000000000000000000000000000, 10609305242600000000000000000000000000000000000000000000000000000000000000000000000000000000, 10609354671700000000000000000000000000000000000000000000000000000000000000000000000000000000, 10609371979300000000000000000000000000000000000000000000000000000000000000000000000000000000, 10609362853100000000000000000000000000000000000000000000000000000000000000000000000000000000, 10609331591300000000000000000000000000000000000000000000000000000000000000000000000000000000, 10609281509100000000000000000000000000000000000000000000000000000000000000000000000000000000, 10609215212100000000000000000000000000000000000000000000000000000000000000000000000000000000, 10609134783800000000000000000000000000000000000000000000000000000000000000000000000000000000, 10609041916100000000000000000000000000000000000000000000000000000000000000000000000000000000, 10608938003200000000000000000000000000000000000000000000000000000000000000000000000000000000, 10608824209200000000000000000000000000000000000000000000000000000000000000000000000000000000, 10608701517200000000000000000000000000000000000000000000000000000000000000000000000000000000, 10608570767300000000000000000000000000000000000000000000000000000000000000000000000000000000, 10608432684300000000000000000000000000000000000000000000000000000000000000000000000000000000, 10608287899000000000000000000000000000000000000000000000000000000000000000000000000000000000, 10608136965600000000000000000000000000000000000000000000000000000000000000000000000000000000, 10607980374300000000000000000000000000000000000000000000000000000000000000000000000000000000, 10607818561800000000000000000000000000000000000000000000000000000000000000000000000000000000, 10607651919900000000000000000000000000000000000000000000000000000000000000000000000000000000, 10607480801500000000000000000000000000000000000000000000000000000000000000000000000000000000, 10607305526900000000000000000000000000000000000000000000000000000000000000000000000000000000, 10607126387900000000000000000000000000000000000000000000000000000000000000000000000000000000, 10606943651400000000000000000000000000000000000000000000000000000000000000000000000000000000, 10606757562500000000000000000000000000000000000000000000000000000000000000000000000000000000, 10606568347500000000000000000000000000000000000000000000000000000000000000000000000000000000, 10606376215600000000000000000000000000000000000000000000000000000000000000000000000000000000, 10606181360800000000000000000000000000000000000000000000000000000000000000000000000000000000, 10605983964100000000000000000000000000000000000000000000000000000000000000000000000000000000, 10605784194100000000000000000000000000000000000000000000000000000000000000000000000000000000, 10605582208600000000000000000000000000000000000000000000000000000000000000000000000000000000]),
  (700734669339000, [10555580362700000000000000000000000000000000000000000000000000000000000000000000000000000000, 10555869890700000000000000000000000000000000000000000000000000000000000000000000000000000000, 10557263344200000000000000000000000000000000000000000000000000000000000000000000000000000000, 10558463945200000000000000000000000000000000000000000000000000000000000000000000000000000000, 10559356246300000000000000000000000000000000000000000000000000000000000000000000000000000000, 10560008143200000000000000000000000000000000000000000000000000000000000000000000000000000000, 10560489075200000000000000000000000000000000000000000000000000000000000000000000000000000000, 10560848288700000000000000000000000000000000000000000000000000000000000000000000000000000000, 10561118725200000000000000000000000000000000000000000000000000000000000000000000000000000000, 10561322520700000000000000000000000000000000000000000000000000000000000000000000000000000000, 10561474880700000000000000000000000000000000000000000000000000000000000000000000000000000000, 10561586525500000000000000000000000000000000000000000000000000000000000000000000000000000000, 10561665210400000000000000000000000000000000000000000000000000000000000000000000000000000000, 10561716683500000000000000000000000000000000000000000000000000000000000000000000000000000000, 10561745301600000000000000000000000000000000000000000000000000000000000000000000000000000000, 10561754434900000000000000000000000000000000000000000000000000000000000000000000000000000000, 10561746739600000000000000000000000000000000000000000000000000000000000000000000000000000000, 10561724345200000000000000000000000000000000000000000000000000000000000000000000000000000000, 10561688985900000000000000000000000000000000000000000000000000000000000000000000000000000000, 10561642093500000000000000000000000000000000000000000000000000000000000000000000000000000000, 10561584866200000000000000000000000000000000000000000000000000000000000000000000000000000000, 10561518318400000000000000000000000000000000000000000000000000000000000000000000000000000000, 10561443318200000000000000000000000000000000000000000000000000000000000000000000000000000000, 10561360615600000000000000000000000000000000000000000000000000000000000000000000000000000000, 10561270865000000000000000000000000000000000000000000000000000000000000000000000000000000000, 10561174641600000000000000000000000000000000000000000000000000000000000000000000000000000000, 10561072455100000000000000000000000000000000000000000000000000000000000000000000000000000000, 10560964760100000000000000000000000000000000000000000000000000000000000000000000000000000000, 10560851964600000000000000000000000000000000000000000000000000000000000000000000000000000000, 10560734437000000000000000000000000000000000000000000000000000000000000000000000000000000000, 10560612511500000000000000000000000000000000000000000000000000000000000000000000000000000000, 10560486493000000000000000000000000000000000000000000000000000000000000000000000000000000000, 10560356660500000000000000000000000000000000000000000000000000000000000000000000000000000000, 10560223270500000000000000000000000000000000000000000000000000000000000000000000000000000000, 10560086559700000000000000000000000000000000000000000000000000000000000000000000000000000000, 10559946747400000000000000000000000000000000000000000000000000000000000000000000000000000000, 10559804037000000000000000000000000000000000000000000000000000000000000000000000000000000000, 10559658618100000000000000000000000000000000000000000000000000000000000000000000000000000000, 10559510667600000000000000000000000000000000000000000000000000000000000000000000000000000000, 10559360351000000000000000000000000000000000000000000000000000000000000000000000000000000000]),
  (702838677355000, [10506536058700000000000000000000000000000000000000000000000000000000000000000000000000000000, 10506904447400000000000000000000000000000000000000000000000000000000000000000000000000000000, 10508371167500000000000000000000000000000000000000000000000000000000000000000000000000000000, 10509643694100000000000000000000000000000000000000000000000000000000000000000000000000000000, 10510606819800000000000000000000000000000000000000000000000000000000000000000000000000000000, 10511328474100000000000000000000000000000000000000000000000000000000000000000000000000000000, 10511878124100000000000000000000000000000000000000000000000000000000000000000000000000000000, 10512305030600000000000000000000000000000000000000000000000000000000000000000000000000000000, 10512642150400000000000000000000000000000000000000000000000000000000000000000000000000000000, 10512911649100000000000000000000000000000000000000000000000000000000000000000000000000000000, 10513128776100000000000000000000000000000000000000000000000000000000000000000000000000000000, 10513304305900000000000000000000000000000000000000000000000000000000000000000000000000000000, 10513446053000000000000000000000000000000000000000000000000000000000000000000000000000000000, 10513559825100000000000000000000000000000000000000000000000000000000000000000000000000000000, 10513650036400000000000000000000000000000000000000000000000000000000000000000000000000000000, 10513720110700000000000000000000000000000000000000000000000000000000000000000000000000000000, 10513772753900000000000000000000000000000000000000000000000000000000000000000000000000000000, 10513810140500000000000000000000000000000000000000000000000000000000000000000000000000000000, 10513834045400000000000000000000000000000000000000000000000000000000000000000000000000000000, 10513845937700000000000000000000000000000000000000000000000000000000000000000000000000000000, 10513847048900000000000000000000000000000000000000000000000000000000000000000000000000000000, 10513838423600000000000000000000000000000000000000000000000000000000000000000000000000000000, 10513820957400000000000000000000000000000000000000000000000000000000000000000000000000000000, 10513795425400000000000000000000000000000000000000000000000000000000000000000000000000000000, 10513762504700000000000000000000000000000000000000000000000000000000000000000000000000000000, 10513722791300000000000000000000000000000000000000000000000000000000000000000000000000000000, 10513676814100000000000000000000000000000000000000000000000000000000000000000000000000000000, 10513625045200000000000000000000000000000000000000000000000000000000000000000000000000000000, 10513567908900000000000000000000000000000000000000000000000000000000000000000000000000000000, 10513505788400000000000000000000000000000000000000000000000000000000000000000000000000000000, 10513439031900000000000000000000000000000000000000000000000000000000000000000000000000000000, 10513367957000000000000000000000000000000000000000000000000000000000000000000000000000000000, 10513292854900000000000000000000000000000000000000000000000000000000000000000000000000000000, 10513213993200000000000000000000000000000000000000000000000000000000000000000000000000000000, 10513131619200000000000000000000000000000000000000000000000000000000000000000000000000000000, 10513045961900000000000000000000000000000000000000000000000000000000000000000000000000000000, 10512957233900000000000000000000000000000000000000000000000000000000000000000000000000000000, 10512865633500000000000000000000000000000000000000000000000000000000000000000000000000000000, 10512771345800000000000000000000000000000000000000000000000000000000000000000000000000000000, 10512674544100000000000000000000000000000000000000000000000000000000000000000000000000000000]),
  (704942685371000, [10456979233000000000000000000000000000000000000000000000000000000000000000000000000000000000, 10457430620100000000000000000000000000000000000000000000000000000000000000000000000000000000, 10458972483100000000000000000000000000000000000000000000000000000000000000000000000000000000, 10460318342400000000000000000000000000000000000000000000000000000000000000000000000000000000, 10461353721500000000000000000000000000000000000000000000000000000000000000000000000000000000, 10462146642000000000000000000000000000000000000000000000000000000000000000000000000000000000, 10462766571500000000000000000000000000000000000000000000000000000000000000000000000000000000, 10463262760900000000000000000000000000000000000000000000000000000000000000000000000000000000, 10463668173600000000000000000000000000000000000000000000000000000000000000000000000000000000, 10464005002600000000000000000000000000000000000000000000000000000000000000000000000000000000, 10464288542200000000000000000000000000000000000000000000000000000000000000000000000000000000, 10464529621500000000000000000000000000000000000000000000000000000000000000000000000000000000, 10464736114100000000000000000000000000000000000000000000000000000000000000000000000000000000, 10464913886300000000000000000000000000000000000000000000000000000000000000000000000000000000, 10465067408300000000000000000000000000000000000000000000000000000000000000000000000000000000, 10465200156600000000000000000000000000000000000000000000000000000000000000000000000000000000, 10465314884800000000000000000000000000000000000000000000000000000000000000000000000000000000, 10465413811200000000000000000000000000000000000000000000000000000000000000000000000000000000, 10465498750300000000000000000000000000000000000000000000000000000000000000000000000000000000, 10465571207100000000000000000000000000000000000000000000000000000000000000000000000000000000, 10465632445600000000000000000000000000000000000000000000000000000000000000000000000000000000, 10465683539800000000000000000000000000000000000000000000000000000000000000000000000000000000, 10465725412100000000000000000000000000000000000000000000000000000000000000000000000000000000, 10465758862000000000000000000000000000000000000000000000000000000000000000000000000000000000, 10465784588900000000000000000000000000000000000000000000000000000000000000000000000000000000, 10465803209100000000000000000000000000000000000000000000000000000000000000000000000000000000, 10465815270300000000000000000000000000000000000000000000000000000000000000000000000000000000, 10465821261700000000000000000000000000000000000000000000000000000000000000000000000000000000, 10465821623500000000000000000000000000000000000000000000000000000000000000000000000000000000, 10465816753800000000000000000000000000000000000000000000000000000000000000000000000000000000, 10465807014200000000000000000000000000000000000000000000000000000000000000000000000000000000, 10465792735300000000000000000000000000000000000000000000000000000000000000000000000000000000, 10465774219700000000000000000000000000000000000000000000000000000000000000000000000000000000, 10465751746400000000000000000000000000000000000000000000000000000000000000000000000000000000, 10465725572900000000000000000000000000000000000000000000000000000000000000000000000000000000, 10465695937900000000000000000000000000000000000000000000000000000000000000000000000000000000, 10465663063100000000000000000000000000000000000000000000000000000000000000000000000000000000, 10465627155400000000000000000000000000000000000000000000000000000000000000000000000000000000, 10465588407900000000000000000000000000000000000000000000000000000000000000000000000000000000, 10465547001800000000000000000000000000000000000000000000000000000000000000000000000000000000]),
  (707046693387000, [10406928879900000000000000000000000000000000000000000000000000000000000000000000000000000000, 10407470498000000000000000000000000000000000000000000000000000000000000000000000000000000000, 10409090348000000000000000000000000000000000000000000000000000000000000000000000000000000000, 10410511236200000000000000000000000000000000000000000000000000000000000000000000000000000000, 10411620383200000000000000000000000000000000000000000000000000000000000000000000000000000000, 10412486099400000000000000000000000000000000000000000000000000000000000000000000000000000000, 10413177867800000000000000000000000000000000000000000000000000000000000000000000000000000000, 10413744921200000000000000000000000000000000000000000000000000000000000000000000000000000000, 10414220225800000000000000000000000000000000000000000000000000000000000000000000000000000000, 10414626003300000000000000000000000000000000000000000000000000000000000000000000000000000000, 10414977594400000000000000000000000000000000000000000000000000000000000000000000000000000000, 10415285884300000000000000000000000000000000000000000000000000000000000000000000000000000000, 10415558805100000000000000000000000000000000000000000000000000000000000000000000000000000000, 10415802281000000000000000000000000000000000000000000000000000000000000000000000000000000000, 10416020836800000000000000000000000000000000000000000000000000000000000000000000000000000000, 10416217999500000000000000000000000000000000000000000000000000000000000000000000000000000000, 10416396569200000000000000000000000000000000000000000000000000000000000000000000000000000000, 10416558806100000000000000000000000000000000000000000000000000000000000000000000000000000000, 10416706563100000000000000000000000000000000000000000000000000000000000000000000000000000000, 10416841379700000000000000000000000000000000000000000000000000000000000000000000000000000000, 10416964551200000000000000000000000000000000000000000000000000000000000000000000000000000000, 10417077180400000000000000000000000000000000000000000000000000000000000000000000000000000000, 10417180215400000000000000000000000000000000000000000000000000000000000000000000000000000000, 10417274479500000000000000000000000000000000000000000000000000000000000000000000000000000000, 10417360693800000000000000000000000000000000000000000000000000000000000000000000000000000000, 10417439494500000000000000000000000000000000000000000000000000000000000000000000000000000000, 10417511447500000000000000000000000000000000000000000000000000000000000000000000000000000000, 10417577058800000000000000000000000000000000000000000000000000000000000000000000000000000000, 10417636784300000000000000000000000000000000000000000000000000000000000000000000000000000000, 10417691036300000000000000000000000000000000000000000000000000000000000000000000000000000000, 10417740190100000000000000000000000000000000000000000000000000000000000000000000000000000000, 10417784588300000000000000000000000000000000000000000000000000000000000000000000000000000000, 10417824545500000000000000000000000000000000000000000000000000000000000000000000000000000000, 10417860351500000000000000000000000000000000000000000000000000000000000000000000000000000000, 10417892273800000000000000000000000000000000000000000000000000000000000000000000000000000000, 10417920560700000000000000000000000000000000000000000000000000000000000000000000000000000000, 10417945443100000000000000000000000000000000000000000000000000000000000000000000000000000000, 10417967136200000000000000000000000000000000000000000000000000000000000000000000000000000000, 10417985841100000000000000000000000000000000000000000000000000000000000000000000000000000000, 10418001746600000000000000000000000000000000000000000000000000000000000000000000000000000000]),
  (709150701403000, [10356410454000000000000000000000000000000000000000000000000000000000000000000000000000000000, 10357048859000000000000000000000000000000000000000000000000000000000000000000000000000000000, 10358749761500000000000000000000000000000000000000000000000000000000000000000000000000000000, 10360247563000000000000000000000000000000000000000000000000000000000000000000000000000000000, 10361432080000000000000000000000000000000000000000000000000000000000000000000000000000000000, 10362372149200000000000000000000000000000000000000000000000000000000000000000000000000000000, 10363137317300000000000000000000000000000000000000000000000000000000000000000000000000000000, 10363776808000000000000000000000000000000000000000000000000000000000000000000000000000000000, 10364323594500000000000000000000000000000000000000000000000000000000000000000000000000000000, 10364799931400000000000000000000000000000000000000000000000000000000000000000000000000000000, 10365221208800000000000000000000000000000000000000000000000000000000000000000000000000000000, 10365598368900000000000000000000000000000000000000000000000000000000000000000000000000000000, 10365939402300000000000000000000000000000000000000000000000000000000000000000000000000000000, 10366250289700000000000000000000000000000000000000000000000000000000000000000000000000000000, 10366535608800000000000000000000000000000000000000000000000000000000000000000000000000000000, 10366798935100000000000000000000000000000000000000000000000000000000000000000000000000000000, 10367043113100000000000000000000000000000000000000000000000000000000000000000000000000000000, 10367270443700000000000000000000000000000000000000000000000000000000000000000000000000000000, 10367482816100000000000000000000000000000000000000000000000000000000000000000000000000000000, 10367681803200000000000000000000000000000000000000000000000000000000000000000000000000000000, 10367868730700000000000000000000000000000000000000000000000000000000000000000000000000000000, 10368044728600000000000000000000000000000000000000000000000000000000000000000000000000000000, 10368210770300000000000000000000000000000000000000000000000000000000000000000000000000000000, 10368367702000000000000000000000000000000000000000000000000000000000000000000000000000000000, 10368516265800000000000000000000000000000000000000000000000000000000000000000000000000000000, 10368657117300000000000000000000000000000000000000000000000000000000000000000000000000000000, 10368790840000000000000000000000000000000000000000000000000000000000000000000000000000000000, 10368917956400000000000000000000000000000000000000000000000000000000000000000000000000000000, 10369038937600000000000000000000000000000000000000000000000000000000000000000000000000000000, 10369154210000000000000000000000000000000000000000000000000000000000000000000000000000000000, 10369264161900000000000000000000000000000000000000000000000000000000000000000000000000000000, 10369369148100000000000000000000000000000000000000000000000000000000000000000000000000000000, 10369469494800000000000000000000000000000000000000000000000000000000000000000000000000000000, 10369565502100000000000000000000000000000000000000000000000000000000000000000000000000000000, 10369657447800000000000000000000000000000000000000000000000000000000000000000000000000000000, 10369745589500000000000000000000000000000000000000000000000000000000000000000000000000000000, 10369830166900000000000000000000000000000000000000000000000000000000000000000000000000000000, 10369911403600000000000000000000000000000000000000000000000000000000000000000000000000000000, 10369989508700000000000000000000000000000000000000000000000000000000000000000000000000000000, 10370064678200000000000000000000000000000000000000000000000000000000000000000000000000000000]),
  (711254709419000, [10305456027200000000000000000000000000000000000000000000000000000000000000000000000000000000, 10306193522900000000000000000000000000000000000000000000000000000000000000000000000000000000, 10307977903300000000000000000000000000000000000000000000000000000000000000000000000000000000, 10309554496100000000000000000000000000000000000000000000000000000000000000000000000000000000, 10310816025000000000000000000000000000000000000000000000000000000000000000000000000000000000, 10311832017700000000000000000000000000000000000000000000000000000000000000000000000000000000, 10312672142600000000000000000000000000000000000000000000000000000000000000000000000000000000, 10313385634900000000000000000000000000000000000000000000000000000000000000000000000000000000, 10314005485500000000000000000000000000000000000000000000000000000000000000000000000000000000, 10314553987800000000000000000000000000000000000000000000000000000000000000000000000000000000, 10315046584700000000000000000000000000000000000000000000000000000000000000000000000000000000, 10315494276100000000000000000000000000000000000000000000000000000000000000000000000000000000, 10315905110400000000000000000000000000000000000000000000000000000000000000000000000000000000, 10316285123200000000000000000000000000000000000000000000000000000000000000000000000000000000, 10316638942900000000000000000000000000000000000000000000000000000000000000000000000000000000, 10316970191700000000000000000000000000000000000000000000000000000000000000000000000000000000, 10317281756500000000000000000000000000000000000000000000000000000000000000000000000000000000, 10317575976700000000000000000000000000000000000000000000000000000000000000000000000000000000, 10317854776600000000000000000000000000000000000000000000000000000000000000000000000000000000, 10318119761000000000000000000000000000000000000000000000000000000000000000000000000000000000, 10318372284400000000000000000000000000000000000000000000000000000000000000000000000000000000, 10318613503600000000000000000000000000000000000000000000000000000000000000000000000000000000, 10318844416000000000000000000000000000000000000000000000000000000000000000000000000000000000, 10319065889900000000000000000000000000000000000000000000000000000000000000000000000000000000, 10319278687800000000000000000000000000000000000000000000000000000000000000000000000000000000, 10319483484000000000000000000000000000000000000000000000000000000000000000000000000000000000, 10319680879100000000000000000000000000000000000000000000000000000000000000000000000000000000, 10319871411900000000000000000000000000000000000000000000000000000000000000000000000000000000, 10320055567900000000000000000000000000000000000000000000000000000000000000000000000000000000, 10320233787400000000000000000000000000000000000000000000000000000000000000000000000000000000, 10320406471400000000000000000000000000000000000000000000000000000000000000000000000000000000, 10320573986800000000000000000000000000000000000000000000000000000000000000000000000000000000, 10320736670600000000000000000000000000000000000000000000000000000000000000000000000000000000, 10320894833600000000000000000000000000000000000000000000000000000000000000000000000000000000, 10321048763400000000000000000000000000000000000000000000000000000000000000000000000000000000, 10321198726800000000000000000000000000000000000000000000000000000000000000000000000000000000, 10321344972000000000000000000000000000000000000000000000000000000000000000000000000000000000, 10321487731100000000000000000000000000000000000000000000000000000000000000000000000000000000, 10321627220700000000000000000000000000000000000000000000000000000000000000000000000000000000, 10321763644300000000000000000000000000000000000000000000000000000000000000000000000000000000]),
  (713358717435000, [10254101228300000000000000000000000000000000000000000000000000000000000000000000000000000000, 10254935169100000000000000000000000000000000000000000000000000000000000000000000000000000000, 10256804302100000000000000000000000000000000000000000000000000000000000000000000000000000000, 10258461337700000000000000000000000000000000000000000000000000000000000000000000000000000000, 10259801469900000000000000000000000000000000000000000000000000000000000000000000000000000000, 10260894934400000000000000000000000000000000000000000000000000000000000000000000000000000000, 10261811556000000000000000000000000000000000000000000000000000000000000000000000000000000000, 10262600601800000000000000000000000000000000000000000000000000000000000000000000000000000000, 10263295091300000000000000000000000000000000000000000000000000000000000000000000000000000000, 10263917362300000000000000000000000000000000000000000000000000000000000000000000000000000000, 10264482912700000000000000000000000000000000000000000000000000000000000000000000000000000000, 10265002800400000000000000000000000000000000000000000000000000000000000000000000000000000000, 10265485129900000000000000000000000000000000000000000000000000000000000000000000000000000000, 10265935989600000000000000000000000000000000000000000000000000000000000000000000000000000000, 10266360056700000000000000000000000000000000000000000000000000000000000000000000000000000000, 10266760997800000000000000000000000000000000000000000000000000000000000000000000000000000000, 10267141740100000000000000000000000000000000000000000000000000000000000000000000000000000000, 10267504659600000000000000000000000000000000000000000000000000000000000000000000000000000000, 10267851714200000000000000000000000000000000000000000000000000000000000000000000000000000000, 10268184539000000000000000000000000000000000000000000000000000000000000000000000000000000000, 10268504516500000000000000000000000000000000000000000000000000000000000000000000000000000000, 10268812828500000000000000000000000000000000000000000000000000000000000000000000000000000000, 10269110496000000000000000000000000000000000000000000000000000000000000000000000000000000000, 10269398408500000000000000000000000000000000000000000000000000000000000000000000000000000000, 10269677348100000000000000000000000000000000000000000000000000000000000000000000000000000000, 10269948007100000000000000000000000000000000000000000000000000000000000000000000000000000000, 10270211003000000000000000000000000000000000000000000000000000000000000000000000000000000000, 10270466889900000000000000000000000000000000000000000000000000000000000000000000000000000000, 10270716167700000000000000000000000000000000000000000000000000000000000000000000000000000000, 10270959290000000000000000000000000000000000000000000000000000000000000000000000000000000000, 10271196670200000000000000000000000000000000000000000000000000000000000000000000000000000000, 10271428686900000000000000000000000000000000000000000000000000000000000000000000000000000000, 10271655688000000000000000000000000000000000000000000000000000000000000000000000000000000000, 10271877994400000000000000000000000000000000000000000000000000000000000000000000000000000000, 10272095903200000000000000000000000000000000000000000000000000000000000000000000000000000000, 10272309690300000000000000000000000000000000000000000000000000000000000000000000000000000000, 10272519612700000000000000000000000000000000000000000000000000000000000000000000000000000000, 10272725910000000000000000000000000000000000000000000000000000000000000000000000000000000000, 10272928807000000000000000000000000000000000000000000000000000000000000000000000000000000000, 10273128514000000000000000000000000000000000000000000000000000000000000000000000000000000000]),
  (715462725451000, [10202381037000000000000000000000000000000000000000000000000000000000000000000000000000000000, 10203306770400000000000000000000000000000000000000000000000000000000000000000000000000000000, 10205260887800000000000000000000000000000000000000000000000000000000000000000000000000000000, 10206999626700000000000000000000000000000000000000000000000000000000000000000000000000000000, 10208419800500000000000000000000000000000000000000000000000000000000000000000000000000000000, 10209592215700000000000000000000000000000000000000000000000000000000000000000000000000000000, 10210586838600000000000000000000000000000000000000000000000000000000000000000000000000000000, 10211452971300000000000000000000000000000000000000000000000000000000000000000000000000000000, 10212223666100000000000000000000000000000000000000000000000000000000000000000000000000000000, 10212921307500000000000000000000000000000000000000000000000000000000000000000000000000000000, 10213561448100000000000000000000000000000000000000000000000000000000000000000000000000000000, 10214155202200000000000000000000000000000000000000000000000000000000000000000000000000000000, 10214710728600000000000000000000000000000000000000000000000000000000000000000000000000000000, 10215234166000000000000000000000000000000000000000000000000000000000000000000000000000000000, 10215730237900000000000000000000000000000000000000000000000000000000000000000000000000000000, 10216202652700000000000000000000000000000000000000000000000000000000000000000000000000000000, 10216654376100000000000000000000000000000000000000000000000000000000000000000000000000000000, 10217087819100000000000000000000000000000000000000000000000000000000000000000000000000000000, 10217504971300000000000000000000000000000000000000000000000000000000000000000000000000000000, 10217907496700000000000000000000000000000000000000000000000000000000000000000000000000000000, 10218296804500000000000000000000000000000000000000000000000000000000000000000000000000000000, 10218674100900000000000000000000000000000000000000000000000000000000000000000000000000000000, 10219040429000000000000000000000000000000000000000000000000000000000000000000000000000000000, 10219396699000000000000000000000000000000000000000000000000000000000000000000000000000000000, 10219743711700000000000000000000000000000000000000000000000000000000000000000000000000000000, 10220082176900000000000000000000000000000000000000000000000000000000000000000000000000000000, 10220412728300000000000000000000000000000000000000000000000000000000000000000000000000000000, 10220735934800000000000000000000000000000000000000000000000000000000000000000000000000000000, 10221052310200000000000000000000000000000000000000000000000000000000000000000000000000000000, 10221362321200000000000000000000000000000000000000000000000000000000000000000000000000000000, 10221666393100000000000000000000000000000000000000000000000000000000000000000000000000000000, 10221964915800000000000000000000000000000000000000000000000000000000000000000000000000000000, 10222258247800000000000000000000000000000000000000000000000000000000000000000000000000000000, 10222546720000000000000000000000000000000000000000000000000000000000000000000000000000000000, 10222830638900000000000000000000000000000000000000000000000000000000000000000000000000000000, 10223110289000000000000000000000000000000000000000000000000000000000000000000000000000000000, 10223385935800000000000000000000000000000000000000000000000000000000000000000000000000000000, 10223657826800000000000000000000000000000000000000000000000000000000000000000000000000000000, 10223926194100000000000000000000000000000000000000000000000000000000000000000000000000000000, 10224191255400000000000000000000000000000000000000000000000000000000000000000000000000000000]),
  (717566733467000, [10150327735000000000000000000000000000000000000000000000000000000000000000000000000000000000, 10151343047900000000000000000000000000000000000000000000000000000000000000000000000000000000, 10153381929700000000000000000000000000000000000000000000000000000000000000000000000000000000, 10155203190200000000000000000000000000000000000000000000000000000000000000000000000000000000, 10156704613600000000000000000000000000000000000000000000000000000000000000000000000000000000, 10157957347800000000000000000000000000000000000000000000000000000000000000000000000000000000, 10159031423000000000000000000000000000000000000000000000000000000000000000000000000000000000, 10159976150700000000000000000000000000000000000000000000000000000000000000000000000000000000, 10160824606600000000000000000000000000000000000000000000000000000000000000000000000000000000, 10161599217600000000000000000000000000000000000000000000000000000000000000000000000000000000, 10162315587700000000000000000000000000000000000000000000000000000000000000000000000000000000, 10162984884200000000000000000000000000000000000000000000000000000000000000000000000000000000, 10163615317100000000000000000000000000000000000000000000000000000000000000000000000000000000, 10164213072400000000000000000000000000000000000000000000000000000000000000000000000000000000, 10164782917100000000000000000000000000000000000000000000000000000000000000000000000000000000, 10165328599400000000000000000000000000000000000000000000000000000000000000000000000000000000, 10165853121300000000000000000000000000000000000000000000000000000000000000000000000000000000, 10166358926700000000000000000000000000000000000000000000000000000000000000000000000000000000, 10166848035700000000000000000000000000000000000000000000000000000000000000000000000000000000, 10167322139800000000000000000000000000000000000000000000000000000000000000000000000000000000, 10167782673500000000000000000000000000000000000000000000000000000000000000000000000000000000, 10168230866400000000000000000000000000000000000000000000000000000000000000000000000000000000, 10168667782800000000000000000000000000000000000000000000000000000000000000000000000000000000, 10169094352600000000000000000000000000000000000000000000000000000000000000000000000000000000, 10169511394800000000000000000000000000000000000000000000000000000000000000000000000000000000, 10169919635900000000000000000000000000000000000000000000000000000000000000000000000000000000, 10170319725200000000000000000000000000000000000000000000000000000000000000000000000000000000, 10170712245800000000000000000000000000000000000000000000000000000000000000000000000000000000, 10171097725300000000000000000000000000000000000000000000000000000000000000000000000000000000, 10171476642400000000000000000000000000000000000000000000000000000000000000000000000000000000, 10171849434500000000000000000000000000000000000000000000000000000000000000000000000000000000, 10172216502300000000000000000000000000000000000000000000000000000000000000000000000000000000, 10172578214500000000000000000000000000000000000000000000000000000000000000000000000000000000, 10172934911800000000000000000000000000000000000000000000000000000000000000000000000000000000, 10173286909600000000000000000000000000000000000000000000000000000000000000000000000000000000, 10173634501300000000000000000000000000000000000000000000000000000000000000000000000000000000, 10173977960100000000000000000000000000000000000000000000000000000000000000000000000000000000, 10174317541700000000000000000000000000000000000000000000000000000000000000000000000000000000, 10174653485200000000000000000000000000000000000000000000000000000000000000000000000000000000, 10174986015400000000000000000000000000000000000000000000000000000000000000000000000000000000]),
  (719670741483000, [10097972809200000000000000000000000000000000000000000000000000000000000000000000000000000000, 10099080323600000000000000000000000000000000000000000000000000000000000000000000000000000000, 10101203910800000000000000000000000000000000000000000000000000000000000000000000000000000000, 10103108140600000000000000000000000000000000000000000000000000000000000000000000000000000000, 10104691773600000000000000000000000000000000000000000000000000000000000000000000000000000000, 10106026065100000000000000000000000000000000000000000000000000000000000000000000000000000000, 10107180978600000000000000000000000000000000000000000000000000000000000000000000000000000000, 10108205777200000000000000000000000000000000000000000000000000000000000000000000000000000000, 10109133535800000000000000000000000000000000000000000000000000000000000000000000000000000000, 10109986711100000000000000000000000000000000000000000000000000000000000000000000000000000000, 10110780951100000000000000000000000000000000000000000000000000000000000000000000000000000000, 10111527470800000000000000000000000000000000000000000000000000000000000000000000000000000000, 10112234526800000000000000000000000000000000000000000000000000000000000000000000000000000000, 10112908349100000000000000000000000000000000000000000000000000000000000000000000000000000000, 10113553745400000000000000000000000000000000000000000000000000000000000000000000000000000000, 10114174501300000000000000000000000000000000000000000000000000000000000000000000000000000000, 10114773652700000000000000000000000000000000000000000000000000000000000000000000000000000000, 10115353675200000000000000000000000000000000000000000000000000000000000000000000000000000000, 10115916617100000000000000000000000000000000000000000000000000000000000000000000000000000000, 10116464196500000000000000000000000000000000000000000000000000000000000000000000000000000000, 10116997872000000000000000000000000000000000000000000000000000000000000000000000000000000000, 10117518895200000000000000000000000000000000000000000000000000000000000000000000000000000000, 10118028350900000000000000000000000000000000000000000000000000000000000000000000000000000000, 10118527187900000000000000000000000000000000000000000000000000000000000000000000000000000000, 10119016242300000000000000000000000000000000000000000000000000000000000000000000000000000000, 10119496257000000000000000000000000000000000000000000000000000000000000000000000000000000000, 10119967895800000000000000000000000000000000000000000000000000000000000000000000000000000000, 10120431756200000000000000000000000000000000000000000000000000000000000000000000000000000000, 10120888378100000000000000000000000000000000000000000000000000000000000000000000000000000000, 10121338252800000000000000000000000000000000000000000000000000000000000000000000000000000000, 10121781828700000000000000000000000000000000000000000000000000000000000000000000000000000000, 10122219517100000000000000000000000000000000000000000000000000000000000000000000000000000000, 10122651696800000000000000000000000000000000000000000000000000000000000000000000000000000000, 10123078717600000000000000000000000000000000000000000000000000000000000000000000000000000000, 10123500903900000000000000000000000000000000000000000000000000000000000000000000000000000000, 10123918557500000000000000000000000000000000000000000000000000000000000000000000000000000000, 10124331959500000000000000000000000000000000000000000000000000000000000000000000000000000000, 10124741373000000000000000000000000000000000000000000000000000000000000000000000000000000000, 10125147044400000000000000000000000000000000000000000000000000000000000000000000000000000000, 10125549205200000000000000000000000000000000000000000000000000000000000000000000000000000000]),
  (721774749499000, [10045351169600000000000000000000000000000000000000000000000000000000000000000000000000000000, 10046556789300000000000000000000000000000000000000000000000000000000000000000000000000000000, 10048765409100000000000000000000000000000000000000000000000000000000000000000000000000000000, 10050752843900000000000000000000000000000000000000000000000000000000000000000000000000000000, 10052419453200000000000000000000000000000000000000000000000000000000000000000000000000000000, 10053836423100000000000000000000000000000000000000000000000000000000000000000000000000000000, 10055073494700000000000000000000000000000000000000000000000000000000000000000000000000000000, 10056179804500000000000000000000000000000000000000000000000000000000000000000000000000000000, 10057188388800000000000000000000000000000000000000000000000000000000000000000000000000000000, 10058121714900000000000000000000000000000000000000000000000000000000000000000000000000000000, 10058995463300000000000000000000000000000000000000000000000000000000000000000000000000000000, 10059820889000000000000000000000000000000000000000000000000000000000000000000000000000000000, 10060606290200000000000000000000000000000000000000000000000000000000000000000000000000000000, 10061357936700000000000000000000000000000000000000000000000000000000000000000000000000000000, 10062080673600000000000000000000000000000000000000000000000000000000000000000000000000000000, 10062778321100000000000000000000000000000000000000000000000000000000000000000000000000000000, 10063453947400000000000000000000000000000000000000000000000000000000000000000000000000000000, 10064110057200000000000000000000000000000000000000000000000000000000000000000000000000000000, 10064748726200000000000000000000000000000000000000000000000000000000000000000000000000000000, 10065371697200000000000000000000000000000000000000000000000000000000000000000000000000000000, 10065980451600000000000000000000000000000000000000000000000000000000000000000000000000000000, 10066576262100000000000000000000000000000000000000000000000000000000000000000000000000000000, 10067160233100000000000000000000000000000000000000000000000000000000000000000000000000000000, 10067733331000000000000000000000000000000000000000000000000000000000000000000000000000000000, 10068296408700000000000000000000000000000000000000000000000000000000000000000000000000000000, 10068850224400000000000000000000000000000000000000000000000000000000000000000000000000000000, 10069395456300000000000000000000000000000000000000000000000000000000000000000000000000000000, 10069932714900000000000000000000000000000000000000000000000000000000000000000000000000000000, 10070462552800000000000000000000000000000000000000000000000000000000000000000000000000000000, 10070985472700000000000000000000000000000000000000000000000000000000000000000000000000000000, 10071501933800000000000000000000000000000000000000000000000000000000000000000000000000000000, 10072012357700000000000000000000000000000000000000000000000000000000000000000000000000000000, 10072517132800000000000000000000000000000000000000000000000000000000000000000000000000000000, 10073016617900000000000000000000000000000000000000000000000000000000000000000000000000000000, 10073511146200000000000000000000000000000000000000000000000000000000000000000000000000000000, 10074001027200000000000000000000000000000000000000000000000000000000000000000000000000000000, 10074486550100000000000000000000000000000000000000000000000000000000000000000000000000000000, 10074967985000000000000000000000000000000000000000000000000000000000000000000000000000000000, 10075445585500000000000000000000000000000000000000000000000000000000000000000000000000000000, 10075919589600000000000000000000000000000000000000000000000000000000000000000000000000000000]),
  (723878757515000, [9992503889530000000000000000000000000000000000000000000000000000000000000000000000000000000, 9993812856420000000000000000000000000000000000000000000000000000000000000000000000000000000, 9996107037980000000000000000000000000000000000000000000000000000000000000000000000000000000, 9998177899840000000000000000000000000000000000000000000000000000000000000000000000000000000, 9999928171720000000000000000000000000000000000000000000000000000000000000000000000000000000, 10001428866200000000000000000000000000000000000000000000000000000000000000000000000000000000, 10002749361600000000000000000000000000000000000000000000000000000000000000000000000000000000, 10003938586900000000000000000000000000000000000000000000000000000000000000000000000000000000, 10005029497800000000000000000000000000000000000000000000000000000000000000000000000000000000, 10006044548700000000000000000000000000000000000000000000000000000000000000000000000000000000, 10006999438100000000000000000000000000000000000000000000000000000000000000000000000000000000, 10007905452200000000000000000000000000000000000000000000000000000000000000000000000000000000, 10008770923900000000000000000000000000000000000000000000000000000000000000000000000000000000, 10009602158200000000000000000000000000000000000000000000000000000000000000000000000000000000, 10010404034000000000000000000000000000000000000000000000000000000000000000000000000000000000, 10011180403300000000000000000000000000000000000000000000000000000000000000000000000000000000, 10011934364000000000000000000000000000000000000000000000000000000000000000000000000000000000, 10012668448300000000000000000000000000000000000000000000000000000000000000000000000000000000, 10013384757200000000000000000000000000000000000000000000000000000000000000000000000000000000, 10014085056900000000000000000000000000000000000000000000000000000000000000000000000000000000, 10014770850300000000000000000000000000000000000000000000000000000000000000000000000000000000, 10015443430200000000000000000000000000000000000000000000000000000000000000000000000000000000, 10016103919200000000000000000000000000000000000000000000000000000000000000000000000000000000, 10016753300700000000000000000000000000000000000000000000000000000000000000000000000000000000, 10017392443500000000000000000000000000000000000000000000000000000000000000000000000000000000, 10018022120300000000000000000000000000000000000000000000000000000000000000000000000000000000, 10018643022800000000000000000000000000000000000000000000000000000000000000000000000000000000, 10019255774200000000000000000000000000000000000000000000000000000000000000000000000000000000, 10019860939100000000000000000000000000000000000000000000000000000000000000000000000000000000, 10020459031200000000000000000000000000000000000000000000000000000000000000000000000000000000, 10021050520100000000000000000000000000000000000000000000000000000000000000000000000000000000, 10021635837200000000000000000000000000000000000000000000000000000000000000000000000000000000, 10022215380100000000000000000000000000000000000000000000000000000000000000000000000000000000, 10022789516500000000000000000000000000000000000000000000000000000000000000000000000000000000, 10023358587500000000000000000000000000000000000000000000000000000000000000000000000000000000, 10023922910900000000000000000000000000000000000000000000000000000000000000000000000000000000, 10024482783000000000000000000000000000000000000000000000000000000000000000000000000000000000, 10025038481200000000000000000000000000000000000000000000000000000000000000000000000000000000, 10025590265700000000000000000000000000000000000000000000000000000000000000000000000000000000, 10026138381100000000000000000000000000000000000000000000000000000000000000000000000000000000]),
  (725982765531000, [9939477259250000000000000000000000000000000000000000000000000000000000000000000000000000000, 9940891257630000000000000000000000000000000000000000000000000000000000000000000000000000000, 9943271477050000000000000000000000000000000000000000000000000000000000000000000000000000000, 9945426171070000000000000000000000000000000000000000000000000000000000000000000000000000000, 9947260846630000000000000000000000000000000000000000000000000000000000000000000000000000000, 9948846296510000000000000000000000000000000000000000000000000000000000000000000000000000000, 9950251447160000000000000000000000000000000000000000000000000000000000000000000000000000000, 9951524960540000000000000000000000000000000000000000000000000000000000000000000000000000000, 9952699674810000000000000000000000000000000000000000000000000000000000000000000000000000000, 9953798008280000000000000000000000000000000000000000000000000000000000000000000000000000000, 9954835662520000000000000000000000000000000000000000000000000000000000000000000000000000000, 9955823943920000000000000000000000000000000000000000000000000000000000000000000000000000000, 9956771212760000000000000000000000000000000000000000000000000000000000000000000000000000000, 9957683803920000000000000000000000000000000000000000000000000000000000000000000000000000000, 9958566625840000000000000000000000000000000000000000000000000000000000000000000000000000000, 9959423559310000000000000000000000000000000000000000000000000000000000000000000000000000000, 9960257729040000000000000000000000000000000000000000000000000000000000000000000000000000000, 9961071692610000000000000000000000000000000000000000000000000000000000000000000000000000000, 9961867574450000000000000000000000000000000000000000000000000000000000000000000000000000000, 9962647162690000000000000000000000000000000000000000000000000000000000000000000000000000000, 9963411980420000000000000000000000000000000000000000000000000000000000000000000000000000000, 9964163338930000000000000000000000000000000000000000000000000000000000000000000000000000000, 9964902378100000000000000000000000000000000000000000000000000000000000000000000000000000000, 9965630097520000000000000000000000000000000000000000000000000000000000000000000000000000000, 9966347380650000000000000000000000000000000000000000000000000000000000000000000000000000000, 9967055014010000000000000000000000000000000000000000000000000000000000000000000000000000000, 9967753702320000000000000000000000000000000000000000000000000000000000000000000000000000000, 9968444080810000000000000000000000000000000000000000000000000000000000000000000000000000000, 9969126725150000000000000000000000000000000000000000000000000000000000000000000000000000000, 9969802159660000000000000000000000000000000000000000000000000000000000000000000000000000000, 9970470864030000000000000000000000000000000000000000000000000000000000000000000000000000000, 9971133278930000000000000000000000000000000000000000000000000000000000000000000000000000000, 9971789810770000000000000000000000000000000000000000000000000000000000000000000000000000000, 9972440835640000000000000000000000000000000000000000000000000000000000000000000000000000000, 9973086702730000000000000000000000000000000000000000000000000000000000000000000000000000000, 9973727737180000000000000000000000000000000000000000000000000000000000000000000000000000000, 9974364242620000000000000000000000000000000000000000000000000000000000000000000000000000000, 9974996503290000000000000000000000000000000000000000000000000000000000000000000000000000000, 9975624785920000000000000000000000000000000000000000000000000000000000000000000000000000000, 9976249341350000000000000000000000000000000000000000000000000000000000000000000000000000000]),
  (728086773547000, [9886319669980000000000000000000000000000000000000000000000000000000000000000000000000000000, 9887836932240000000000000000000000000000000000000000000000000000000000000000000000000000000, 9890303611860000000000000000000000000000000000000000000000000000000000000000000000000000000, 9892542881250000000000000000000000000000000000000000000000000000000000000000000000000000000, 9894462869620000000000000000000000000000000000000000000000000000000000000000000000000000000, 9896134146440000000000000000000000000000000000000000000000000000000000000000000000000000000, 9897625172710000000000000000000000000000000000000000000000000000000000000000000000000000000, 9898984321890000000000000000000000000000000000000000000000000000000000000000000000000000000, 9900244292900000000000000000000000000000000000000000000000000000000000000000000000000000000, 9901427449330000000000000000000000000000000000000000000000000000000000000000000000000000000, 9902549480990000000000000000000000000000000000000000000000000000000000000000000000000000000, 9903621703620000000000000000000000000000000000000000000000000000000000000000000000000000000, 9904652496760000000000000000000000000000000000000000000000000000000000000000000000000000000, 9905648218890000000000000000000000000000000000000000000000000000000000000000000000000000000, 9906613803450000000000000000000000000000000000000000000000000000000000000000000000000000000, 9907553156180000000000000000000000000000000000000000000000000000000000000000000000000000000, 9908469425890000000000000000000000000000000000000000000000000000000000000000000000000000000, 9909365192980000000000000000000000000000000000000000000000000000000000000000000000000000000, 9910242603340000000000000000000000000000000000000000000000000000000000000000000000000000000, 9911103465110000000000000000000000000000000000000000000000000000000000000000000000000000000, 9911949320010000000000000000000000000000000000000000000000000000000000000000000000000000000, 9912781496620000000000000000000000000000000000000000000000000000000000000000000000000000000, 9913601150900000000000000000000000000000000000000000000000000000000000000000000000000000000, 9914409297360000000000000000000000000000000000000000000000000000000000000000000000000000000, 9915206833390000000000000000000000000000000000000000000000000000000000000000000000000000000, 9915994558450000000000000000000000000000000000000000000000000000000000000000000000000000000, 9916773189370000000000000000000000000000000000000000000000000000000000000000000000000000000, 9917543372720000000000000000000000000000000000000000000000000000000000000000000000000000000, 9918305694820000000000000000000000000000000000000000000000000000000000000000000000000000000, 9919060689990000000000000000000000000000000000000000000000000000000000000000000000000000000, 9919808847340000000000000000000000000000000000000000000000000000000000000000000000000000000, 9920550616470000000000000000000000000000000000000000000000000000000000000000000000000000000, 9921286412230000000000000000000000000000000000000000000000000000000000000000000000000000000, 9922016618710000000000000000000000000000000000000000000000000000000000000000000000000000000, 9922741592690000000000000000000000000000000000000000000000000000000000000000000000000000000, 9923461666590000000000000000000000000000000000000000000000000000000000000000000000000000000, 9924177150930000000000000000000000000000000000000000000000000000000000000000000000000000000, 9924888336550000000000000000000000000000000000000000000000000000000000000000000000000000000, 9925595496480000000000000000000000000000000000000000000000000000000000000000000000000000000, 9926298887620000000000000000000000000000000000000000000000000000000000000000000000000000000]),
  (730190781563000, [9833079601370000000000000000000000000000000000000000000000000000000000000000000000000000000, 9834697038170000000000000000000000000000000000000000000000000000000000000000000000000000000, 9837250788410000000000000000000000000000000000000000000000000000000000000000000000000000000, 9839575782230000000000000000000000000000000000000000000000000000000000000000000000000000000, 9841582212910000000000000000000000000000000000000000000000000000000000000000000000000000000, 9843340462540000000000000000000000000000000000000000000000000000000000000000000000000000000, 9844918591260000000000000000000000000000000000000000000000000000000000000000000000000000000, 9846364707300000000000000000000000000000000000000000000000000000000000000000000000000000000, 9847711368130000000000000000000000000000000000000000000000000000000000000000000000000000000, 9848980871200000000000000000000000000000000000000000000000000000000000000000000000000000000, 9850188882130000000000000000000000000000000000000000000000000000000000000000000000000000000, 9851346715210000000000000000000000000000000000000000000000000000000000000000000000000000000, 9852462760650000000000000000000000000000000000000000000000000000000000000000000000000000000, 9853543393880000000000000000000000000000000000000000000000000000000000000000000000000000000, 9854593568180000000000000000000000000000000000000000000000000000000000000000000000000000000, 9855617210110000000000000000000000000000000000000000000000000000000000000000000000000000000, 9856617489240000000000000000000000000000000000000000000000000000000000000000000000000000000, 9857597006110000000000000000000000000000000000000000000000000000000000000000000000000000000, 9858557925750000000000000000000000000000000000000000000000000000000000000000000000000000000, 9859502074350000000000000000000000000000000000000000000000000000000000000000000000000000000, 9860431010560000000000000000000000000000000000000000000000000000000000000000000000000000000, 9861346078770000000000000000000000000000000000000000000000000000000000000000000000000000000, 9862248449700000000000000000000000000000000000000000000000000000000000000000000000000000000, 9863139151650000000000000000000000000000000000000000000000000000000000000000000000000000000, 9864019094870000000000000000000000000000000000000000000000000000000000000000000000000000000, 9864889090870000000000000000000000000000000000000000000000000000000000000000000000000000000, 9865749867760000000000000000000000000000000000000000000000000000000000000000000000000000000, 9866602082720000000000000000000000000000000000000000000000000000000000000000000000000000000, 9867446332040000000000000000000000000000000000000000000000000000000000000000000000000000000, 9868283159440000000000000000000000000000000000000000000000000000000000000000000000000000000, 9869113062940000000000000000000000000000000000000000000000000000000000000000000000000000000, 9869936500560000000000000000000000000000000000000000000000000000000000000000000000000000000, 9870753895130000000000000000000000000000000000000000000000000000000000000000000000000000000, 9871565638350000000000000000000000000000000000000000000000000000000000000000000000000000000, 9872372094260000000000000000000000000000000000000000000000000000000000000000000000000000000, 9873173602160000000000000000000000000000000000000000000000000000000000000000000000000000000, 9873970479200000000000000000000000000000000000000000000000000000000000000000000000000000000, 9874763022510000000000000000000000000000000000000000000000000000000000000000000000000000000, 9875551511180000000000000000000000000000000000000000000000000000000000000000000000000000000, 9876336207890000000000000000000000000000000000000000000000000000000000000000000000000000000]),
  (732294789579000, [9779806276020000000000000000000000000000000000000000000000000000000000000000000000000000000, 9781521347310000000000000000000000000000000000000000000000000000000000000000000000000000000, 9784163150950000000000000000000000000000000000000000000000000000000000000000000000000000000, 9786575363960000000000000000000000000000000000000000000000000000000000000000000000000000000, 9788669559170000000000000000000000000000000000000000000000000000000000000000000000000000000, 9790516000850000000000000000000000000000000000000000000000000000000000000000000000000000000, 9792182472020000000000000000000000000000000000000000000000000000000000000000000000000000000, 9793716876010000000000000000000000000000000000000000000000000000000000000000000000000000000, 9795151644440000000000000000000000000000000000000000000000000000000000000000000000000000000, 9796509004800000000000000000000000000000000000000000000000000000000000000000000000000000000, 9797804588800000000000000000000000000000000000000000000000000000000000000000000000000000000, 9799049699200000000000000000000000000000000000000000000000000000000000000000000000000000000, 9800252728230000000000000000000000000000000000000000000000000000000000000000000000000000000, 9801420061220000000000000000000000000000000000000000000000000000000000000000000000000000000, 9802556665660000000000000000000000000000000000000000000000000000000000000000000000000000000, 9803666484460000000000000000000000000000000000000000000000000000000000000000000000000000000, 9804752704300000000000000000000000000000000000000000000000000000000000000000000000000000000, 9805817942810000000000000000000000000000000000000000000000000000000000000000000000000000000, 9806864381620000000000000000000000000000000000000000000000000000000000000000000000000000000, 9807893862840000000000000000000000000000000000000000000000000000000000000000000000000000000, 9808907960170000000000000000000000000000000000000000000000000000000000000000000000000000000, 9809908032190000000000000000000000000000000000000000000000000000000000000000000000000000000, 9810895262950000000000000000000000000000000000000000000000000000000000000000000000000000000, 9811870693280000000000000000000000000000000000000000000000000000000000000000000000000000000, 9812835245190000000000000000000000000000000000000000000000000000000000000000000000000000000, 9813789741230000000000000000000000000000000000000000000000000000000000000000000000000000000, 9814734919930000000000000000000000000000000000000000000000000000000000000000000000000000000, 9815671448250000000000000000000000000000000000000000000000000000000000000000000000000000000, 9816599931750000000000000000000000000000000000000000000000000000000000000000000000000000000, 9817520922940000000000000000000000000000000000000000000000000000000000000000000000000000000, 9818434928130000000000000000000000000000000000000000000000000000000000000000000000000000000, 9819342413230000000000000000000000000000000000000000000000000000000000000000000000000000000, 9820243808610000000000000000000000000000000000000000000000000000000000000000000000000000000, 9821139513120000000000000000000000000000000000000000000000000000000000000000000000000000000, 9822029897650000000000000000000000000000000000000000000000000000000000000000000000000000000, 9822915308050000000000000000000000000000000000000000000000000000000000000000000000000000000, 9823796067700000000000000000000000000000000000000000000000000000000000000000000000000000000, 9824672479750000000000000000000000000000000000000000000000000000000000000000000000000000000, 9825544829030000000000000000000000000000000000000000000000000000000000000000000000000000000, 9826413383730000000000000000000000000000000000000000000000000000000000000000000000000000000]),
  (734398797595000, [9726551869730000000000000000000000000000000000000000000000000000000000000000000000000000000, 9728362891180000000000000000000000000000000000000000000000000000000000000000000000000000000, 9731093978980000000000000000000000000000000000000000000000000000000000000000000000000000000, 9733595065130000000000000000000000000000000000000000000000000000000000000000000000000000000, 9735778441180000000000000000000000000000000000000000000000000000000000000000000000000000000, 9737714333080000000000000000000000000000000000000000000000000000000000000000000000000000000, 9739470394030000000000000000000000000000000000000000000000000000000000000000000000000000000, 9741094400830000000000000000000000000000000000000000000000000000000000000000000000000000000, 9742618685260000000000000000000000000000000000000000000000000000000000000000000000000000000, 9744065406240000000000000000000000000000000000000000000000000000000000000000000000000000000, 9745450154110000000000000000000000000000000000000000000000000000000000000000000000000000000, 9746784210890000000000000000000000000000000000000000000000000000000000000000000000000000000, 9748075962290000000000000000000000000000000000000000000000000000000000000000000000000000000, 9749331796330000000000000000000000000000000000000000000000000000000000000000000000000000000, 9750556688830000000000000000000000000000000000000000000000000000000000000000000000000000000, 9751754594230000000000000000000000000000000000000000000000000000000000000000000000000000000, 9752928712400000000000000000000000000000000000000000000000000000000000000000000000000000000, 9754081674780000000000000000000000000000000000000000000000000000000000000000000000000000000, 9755215676840000000000000000000000000000000000000000000000000000000000000000000000000000000, 9756332574240000000000000000000000000000000000000000000000000000000000000000000000000000000, 9757433953700000000000000000000000000000000000000000000000000000000000000000000000000000000, 9758521186230000000000000000000000000000000000000000000000000000000000000000000000000000000, 9759595467690000000000000000000000000000000000000000000000000000000000000000000000000000000, 9760657850060000000000000000000000000000000000000000000000000000000000000000000000000000000, 9761709265900000000000000000000000000000000000000000000000000000000000000000000000000000000, 9762750547750000000000000000000000000000000000000000000000000000000000000000000000000000000, 9763782443590000000000000000000000000000000000000000000000000000000000000000000000000000000, 9764805629330000000000000000000000000000000000000000000000000000000000000000000000000000000, 9765820719020000000000000000000000000000000000000000000000000000000000000000000000000000000, 9766828273230000000000000000000000000000000000000000000000000000000000000000000000000000000, 9767828805970000000000000000000000000000000000000000000000000000000000000000000000000000000, 9768822790490000000000000000000000000000000000000000000000000000000000000000000000000000000, 9769810664130000000000000000000000000000000000000000000000000000000000000000000000000000000, 9770792832460000000000000000000000000000000000000000000000000000000000000000000000000000000, 9771769672750000000000000000000000000000000000000000000000000000000000000000000000000000000, 9772741536980000000000000000000000000000000000000000000000000000000000000000000000000000000, 9773708754420000000000000000000000000000000000000000000000000000000000000000000000000000000, 9774671633850000000000000000000000000000000000000000000000000000000000000000000000000000000, 9775630465500000000000000000000000000000000000000000000000000000000000000000000000000000000, 9776585522720000000000000000000000000000000000000000000000000000000000000000000000000000000])]
noncomputable def ttSpec14 : List (Nat × List Nat) := [
  (736502805611000, [9673373127100000000000000000000000000000000000000000000000000000000000000000000000000000000, 9675278425760000000000000000000000000000000000000000000000000000000000000000000000000000000, 9678099915130000000000000000000000000000000000000000000000000000000000000000000000000000000, 9680691440720000000000000000000000000000000000000000000000000000000000000000000000000000000, 9682965374060000000000000000000000000000000000000000000000000000000000000000000000000000000, 9684991958980000000000000000000000000000000000000000000000000000000000000000000000000000000, 9686838849590000000000000000000000000000000000000000000000000000000000000000000000000000000, 9688553768870000000000000000000000000000000000000000000000000000000000000000000000000000000, 9690168974420000000000000000000000000000000000000000000000000000000000000000000000000000000, 9691706559010000000000000000000000000000000000000000000000000000000000000000000000000000000, 9693182065290000000000000000000000000000000000000000000000000000000000000000000000000000000, 9694606745940000000000000000000000000000000000000000000000000000000000000000000000000000000, 9695988971870000000000000000000000000000000000000000000000000000000000000000000000000000000, 9697335126580000000000000000000000000000000000000000000000000000000000000000000000000000000, 9698650188210000000000000000000000000000000000000000000000000000000000000000000000000000000, 9699938117740000000000000000000000000000000000000000000000000000000000000000000000000000000, 9701202124060000000000000000000000000000000000000000000000000000000000000000000000000000000, 9702444848940000000000000000000000000000000000000000000000000000000000000000000000000000000, 9703668498750000000000000000000000000000000000000000000000000000000000000000000000000000000, 9704874940160000000000000000000000000000000000000000000000000000000000000000000000000000000, 9706065770730000000000000000000000000000000000000000000000000000000000000000000000000000000, 9707242372030000000000000000000000000000000000000000000000000000000000000000000000000000000, 9708405950040000000000000000000000000000000000000000000000000000000000000000000000000000000, 9709557566420000000000000000000000000000000000000000000000000000000000000000000000000000000, 9710698163030000000000000000000000000000000000000000000000000000000000000000000000000000000, 9711828581210000000000000000000000000000000000000000000000000000000000000000000000000000000, 9712949577360000000000000000000000000000000000000000000000000000000000000000000000000000000, 9714061835420000000000000000000000000000000000000000000000000000000000000000000000000000000, 9715165977130000000000000000000000000000000000000000000000000000000000000000000000000000000, 9716262570370000000000000000000000000000000000000000000000000000000000000000000000000000000, 9717352136140000000000000000000000000000000000000000000000000000000000000000000000000000000, 9718435154420000000000000000000000000000000000000000000000000000000000000000000000000000000, 9719512068970000000000000000000000000000000000000000000000000000000000000000000000000000000, 9720583291510000000000000000000000000000000000000000000000000000000000000000000000000000000, 9721649205240000000000000000000000000000000000000000000000000000000000000000000000000000000, 9722710167810000000000000000000000000000000000000000000000000000000000000000000000000000000, 9723766513910000000000000000000000000000000000000000000000000000000000000000000000000000000, 9724818557560000000000000000000000000000000000000000000000000000000000000000000000000000000, 9725866593950000000000000000000000000000000000000000000000000000000000000000000000000000000, 9726910901250000000000000000000000000000000000000000000000000000000000000000000000000000000]),
  (738606813627000, [9620331022720000000000000000000000000000000000000000000000000000000000000000000000000000000, 9622328385240000000000000000000000000000000000000000000000000000000000000000000000000000000, 9625241017550000000000000000000000000000000000000000000000000000000000000000000000000000000, 9627924259910000000000000000000000000000000000000000000000000000000000000000000000000000000, 9630289967720000000000000000000000000000000000000000000000000000000000000000000000000000000, 9632408420450000000000000000000000000000000000000000000000000000000000000000000000000000000, 9634347357040000000000000000000000000000000000000000000000000000000000000000000000000000000, 9636154493320000000000000000000000000000000000000000000000000000000000000000000000000000000, 9637862027780000000000000000000000000000000000000000000000000000000000000000000000000000000, 9639491986340000000000000000000000000000000000000000000000000000000000000000000000000000000, 9641059857120000000000000000000000000000000000000000000000000000000000000000000000000000000, 9642576855060000000000000000000000000000000000000000000000000000000000000000000000000000000, 9644051328240000000000000000000000000000000000000000000000000000000000000000000000000000000, 9645489648620000000000000000000000000000000000000000000000000000000000000000000000000000000, 9646896790610000000000000000000000000000000000000000000000000000000000000000000000000000000, 9648276716650000000000000000000000000000000000000000000000000000000000000000000000000000000, 9649632640360000000000000000000000000000000000000000000000000000000000000000000000000000000, 9650967210190000000000000000000000000000000000000000000000000000000000000000000000000000000, 9652282640320000000000000000000000000000000000000000000000000000000000000000000000000000000, 9653580805740000000000000000000000000000000000000000000000000000000000000000000000000000000, 9654863312550000000000000000000000000000000000000000000000000000000000000000000000000000000, 9656131550830000000000000000000000000000000000000000000000000000000000000000000000000000000, 9657386734900000000000000000000000000000000000000000000000000000000000000000000000000000000, 9658629934580000000000000000000000000000000000000000000000000000000000000000000000000000000, 9659862099580000000000000000000000000000000000000000000000000000000000000000000000000000000, 9661084078850000000000000000000000000000000000000000000000000000000000000000000000000000000, 9662296636110000000000000000000000000000000000000000000000000000000000000000000000000000000, 9663500462330000000000000000000000000000000000000000000000000000000000000000000000000000000, 9664696186000000000000000000000000000000000000000000000000000000000000000000000000000000000, 9665884381530000000000000000000000000000000000000000000000000000000000000000000000000000000, 9667065576190000000000000000000000000000000000000000000000000000000000000000000000000000000, 9668240255970000000000000000000000000000000000000000000000000000000000000000000000000000000, 9669408870430000000000000000000000000000000000000000000000000000000000000000000000000000000, 9670571836880000000000000000000000000000000000000000000000000000000000000000000000000000000, 9671729543860000000000000000000000000000000000000000000000000000000000000000000000000000000, 9672882354160000000000000000000000000000000000000000000000000000000000000000000000000000000, 9674030607430000000000000000000000000000000000000000000000000000000000000000000000000000000, 9675174622380000000000000000000000000000000000000000000000000000000000000000000000000000000, 9676314698750000000000000000000000000000000000000000000000000000000000000000000000000000000, 9677451118970000000000000000000000000000000000000000000000000000000000000000000000000000000]),
  (740710821643000, [9567488836830000000000000000000000000000000000000000000000000000000000000000000000000000000, 9569576419590000000000000000000000000000000000000000000000000000000000000000000000000000000, 9572580664050000000000000000000000000000000000000000000000000000000000000000000000000000000, 9575356539630000000000000000000000000000000000000000000000000000000000000000000000000000000, 9577815017910000000000000000000000000000000000000000000000000000000000000000000000000000000, 9580026415290000000000000000000000000000000000000000000000000000000000000000000000000000000, 9582058581930000000000000000000000000000000000000000000000000000000000000000000000000000000, 9583959236390000000000000000000000000000000000000000000000000000000000000000000000000000000, 9585760516530000000000000000000000000000000000000000000000000000000000000000000000000000000, 9587484374660000000000000000000000000000000000000000000000000000000000000000000000000000000, 9589146235830000000000000000000000000000000000000000000000000000000000000000000000000000000, 9590757268730000000000000000000000000000000000000000000000000000000000000000000000000000000, 9592325790770000000000000000000000000000000000000000000000000000000000000000000000000000000, 9593858155430000000000000000000000000000000000000000000000000000000000000000000000000000000, 9595359327480000000000000000000000000000000000000000000000000000000000000000000000000000000, 9596833265710000000000000000000000000000000000000000000000000000000000000000000000000000000, 9598283184100000000000000000000000000000000000000000000000000000000000000000000000000000000, 9599711734030000000000000000000000000000000000000000000000000000000000000000000000000000000, 9601121134240000000000000000000000000000000000000000000000000000000000000000000000000000000, 9602513265240000000000000000000000000000000000000000000000000000000000000000000000000000000, 9603889739220000000000000000000000000000000000000000000000000000000000000000000000000000000, 9605251952600000000000000000000000000000000000000000000000000000000000000000000000000000000, 9606601126200000000000000000000000000000000000000000000000000000000000000000000000000000000, 9607938336300000000000000000000000000000000000000000000000000000000000000000000000000000000, 9609264538990000000000000000000000000000000000000000000000000000000000000000000000000000000, 9610580589490000000000000000000000000000000000000000000000000000000000000000000000000000000, 9611887257630000000000000000000000000000000000000000000000000000000000000000000000000000000, 9613185240370000000000000000000000000000000000000000000000000000000000000000000000000000000, 9614475171990000000000000000000000000000000000000000000000000000000000000000000000000000000, 9615757632520000000000000000000000000000000000000000000000000000000000000000000000000000000, 9617033154670000000000000000000000000000000000000000000000000000000000000000000000000000000, 9618302229710000000000000000000000000000000000000000000000000000000000000000000000000000000, 9619565312290000000000000000000000000000000000000000000000000000000000000000000000000000000, 9620822824620000000000000000000000000000000000000000000000000000000000000000000000000000000, 9622075159970000000000000000000000000000000000000000000000000000000000000000000000000000000, 9623322685670000000000000000000000000000000000000000000000000000000000000000000000000000000, 9624565745700000000000000000000000000000000000000000000000000000000000000000000000000000000, 9625804662910000000000000000000000000000000000000000000000000000000000000000000000000000000, 9627039740970000000000000000000000000000000000000000000000000000000000000000000000000000000, 9628271266040000000000000000000000000000000000000000000000000000000000000000000000000000000]),
  (742814829659000, [9514910659830000000000000000000000000000000000000000000000000000000000000000000000000000000, 9517088974570000000000000000000000000000000000000000000000000000000000000000000000000000000, 9520185418970000000000000000000000000000000000000000000000000000000000000000000000000000000, 9523054550320000000000000000000000000000000000000000000000000000000000000000000000000000000, 9525606587740000000000000000000000000000000000000000000000000000000000000000000000000000000, 9527911913550000000000000000000000000000000000000000000000000000000000000000000000000000000, 9530038466550000000000000000000000000000000000000000000000000000000000000000000000000000000, 9532033943010000000000000000000000000000000000000000000000000000000000000000000000000000000, 9533930401870000000000000000000000000000000000000000000000000000000000000000000000000000000, 9535749708530000000000000000000000000000000000000000000000000000000000000000000000000000000, 9537507214430000000000000000000000000000000000000000000000000000000000000000000000000000000, 9539214033100000000000000000000000000000000000000000000000000000000000000000000000000000000, 9540878443580000000000000000000000000000000000000000000000000000000000000000000000000000000, 9542506774170000000000000000000000000000000000000000000000000000000000000000000000000000000, 9544103974080000000000000000000000000000000000000000000000000000000000000000000000000000000, 9545673993370000000000000000000000000000000000000000000000000000000000000000000000000000000, 9547220041940000000000000000000000000000000000000000000000000000000000000000000000000000000, 9548744770260000000000000000000000000000000000000000000000000000000000000000000000000000000, 9550250398240000000000000000000000000000000000000000000000000000000000000000000000000000000, 9551738809010000000000000000000000000000000000000000000000000000000000000000000000000000000, 9553211618260000000000000000000000000000000000000000000000000000000000000000000000000000000, 9554670226510000000000000000000000000000000000000000000000000000000000000000000000000000000, 9556115859050000000000000000000000000000000000000000000000000000000000000000000000000000000, 9557549596820000000000000000000000000000000000000000000000000000000000000000000000000000000, 9558972400740000000000000000000000000000000000000000000000000000000000000000000000000000000, 9560385130860000000000000000000000000000000000000000000000000000000000000000000000000000000, 9561788561860000000000000000000000000000000000000000000000000000000000000000000000000000000, 9563183395500000000000000000000000000000000000000000000000000000000000000000000000000000000, 9564570270790000000000000000000000000000000000000000000000000000000000000000000000000000000, 9565949772390000000000000000000000000000000000000000000000000000000000000000000000000000000, 9567322437590000000000000000000000000000000000000000000000000000000000000000000000000000000, 9568688762040000000000000000000000000000000000000000000000000000000000000000000000000000000, 9570049204720000000000000000000000000000000000000000000000000000000000000000000000000000000, 9571404191960000000000000000000000000000000000000000000000000000000000000000000000000000000, 9572754121020000000000000000000000000000000000000000000000000000000000000000000000000000000, 9574099363060000000000000000000000000000000000000000000000000000000000000000000000000000000, 9575440265670000000000000000000000000000000000000000000000000000000000000000000000000000000, 9576777155160000000000000000000000000000000000000000000000000000000000000000000000000000000, 9578110338390000000000000000000000000000000000000000000000000000000000000000000000000000000, 9579440104500000000000000000000000000000000000000000000000000000000000000000000000000000000]),
  (744918837675000, [9462662323300000000000000000000000000000000000000000000000000000000000000000000000000000000, 9464935333780000000000000000000000000000000000000000000000000000000000000000000000000000000, 9468124989620000000000000000000000000000000000000000000000000000000000000000000000000000000, 9471087846400000000000000000000000000000000000000000000000000000000000000000000000000000000, 9473734100490000000000000000000000000000000000000000000000000000000000000000000000000000000, 9476134282900000000000000000000000000000000000000000000000000000000000000000000000000000000, 9478356369300000000000000000000000000000000000000000000000000000000000000000000000000000000, 9480447985200000000000000000000000000000000000000000000000000000000000000000000000000000000, 9482441080900000000000000000000000000000000000000000000000000000000000000000000000000000000, 9484357417030000000000000000000000000000000000000000000000000000000000000000000000000000000, 9486212259510000000000000000000000000000000000000000000000000000000000000000000000000000000, 9488016657580000000000000000000000000000000000000000000000000000000000000000000000000000000, 9489778844250000000000000000000000000000000000000000000000000000000000000000000000000000000, 9491505116010000000000000000000000000000000000000000000000000000000000000000000000000000000, 9493200400710000000000000000000000000000000000000000000000000000000000000000000000000000000, 9494868634550000000000000000000000000000000000000000000000000000000000000000000000000000000, 9496513018830000000000000000000000000000000000000000000000000000000000000000000000000000000, 9498136199140000000000000000000000000000000000000000000000000000000000000000000000000000000, 9499740393110000000000000000000000000000000000000000000000000000000000000000000000000000000, 9501327483390000000000000000000000000000000000000000000000000000000000000000000000000000000, 9502899086460000000000000000000000000000000000000000000000000000000000000000000000000000000, 9504456604560000000000000000000000000000000000000000000000000000000000000000000000000000000, 9506001265300000000000000000000000000000000000000000000000000000000000000000000000000000000, 9507534152420000000000000000000000000000000000000000000000000000000000000000000000000000000, 9509056229940000000000000000000000000000000000000000000000000000000000000000000000000000000, 9510568361210000000000000000000000000000000000000000000000000000000000000000000000000000000, 9512071324370000000000000000000000000000000000000000000000000000000000000000000000000000000, 9513565824700000000000000000000000000000000000000000000000000000000000000000000000000000000, 9515052504770000000000000000000000000000000000000000000000000000000000000000000000000000000, 9516531952830000000000000000000000000000000000000000000000000000000000000000000000000000000, 9518004709660000000000000000000000000000000000000000000000000000000000000000000000000000000, 9519471274400000000000000000000000000000000000000000000000000000000000000000000000000000000, 9520932109390000000000000000000000000000000000000000000000000000000000000000000000000000000, 9522387644220000000000000000000000000000000000000000000000000000000000000000000000000000000, 9523838279270000000000000000000000000000000000000000000000000000000000000000000000000000000, 9525284388640000000000000000000000000000000000000000000000000000000000000000000000000000000, 9526726322730000000000000000000000000000000000000000000000000000000000000000000000000000000, 9528164410360000000000000000000000000000000000000000000000000000000000000000000000000000000, 9529598960770000000000000000000000000000000000000000000000000000000000000000000000000000000, 9531030265170000000000000000000000000000000000000000000000000000000000000000000000000000000]),
  (747022845691000, [9410814445570000000000000000000000000000000000000000000000000000000000000000000000000000000, 9413188144060000000000000000000000000000000000000000000000000000000000000000000000000000000, 9416472342860000000000000000000000000000000000000000000000000000000000000000000000000000000, 9419529365470000000000000000000000000000000000000000000000000000000000000000000000000000000, 9422270464300000000000000000000000000000000000000000000000000000000000000000000000000000000, 9424766431360000000000000000000000000000000000000000000000000000000000000000000000000000000, 9427085216290000000000000000000000000000000000000000000000000000000000000000000000000000000, 9429274317580000000000000000000000000000000000000000000000000000000000000000000000000000000, 9431365543840000000000000000000000000000000000000000000000000000000000000000000000000000000, 9433380532050000000000000000000000000000000000000000000000000000000000000000000000000000000, 9435334450500000000000000000000000000000000000000000000000000000000000000000000000000000000, 9437238275070000000000000000000000000000000000000000000000000000000000000000000000000000000, 9439100185260000000000000000000000000000000000000000000000000000000000000000000000000000000, 9440926439170000000000000000000000000000000000000000000000000000000000000000000000000000000, 9442721937430000000000000000000000000000000000000000000000000000000000000000000000000000000, 9444490597150000000000000000000000000000000000000000000000000000000000000000000000000000000, 9446235606410000000000000000000000000000000000000000000000000000000000000000000000000000000, 9447959601820000000000000000000000000000000000000000000000000000000000000000000000000000000, 9449664795080000000000000000000000000000000000000000000000000000000000000000000000000000000, 9451353065120000000000000000000000000000000000000000000000000000000000000000000000000000000, 9453026026380000000000000000000000000000000000000000000000000000000000000000000000000000000, 9454685080260000000000000000000000000000000000000000000000000000000000000000000000000000000, 9456331454440000000000000000000000000000000000000000000000000000000000000000000000000000000, 9457966233410000000000000000000000000000000000000000000000000000000000000000000000000000000, 9459590382440000000000000000000000000000000000000000000000000000000000000000000000000000000, 9461204766550000000000000000000000000000000000000000000000000000000000000000000000000000000, 9462810165790000000000000000000000000000000000000000000000000000000000000000000000000000000, 9464407287580000000000000000000000000000000000000000000000000000000000000000000000000000000, 9465996776760000000000000000000000000000000000000000000000000000000000000000000000000000000, 9467579223910000000000000000000000000000000000000000000000000000000000000000000000000000000, 9469155172210000000000000000000000000000000000000000000000000000000000000000000000000000000, 9470725123140000000000000000000000000000000000000000000000000000000000000000000000000000000, 9472289541330000000000000000000000000000000000000000000000000000000000000000000000000000000, 9473848858600000000000000000000000000000000000000000000000000000000000000000000000000000000, 9475403477410000000000000000000000000000000000000000000000000000000000000000000000000000000, 9476953773770000000000000000000000000000000000000000000000000000000000000000000000000000000, 9478500099780000000000000000000000000000000000000000000000000000000000000000000000000000000, 9480042785790000000000000000000000000000000000000000000000000000000000000000000000000000000, 9481582142230000000000000000000000000000000000000000000000000000000000000000000000000000000, 9483118461270000000000000000000000000000000000000000000000000000000000000000000000000000000]),
  (749126853707000, [9359444951540000000000000000000000000000000000000000000000000000000000000000000000000000000, 9361924071880000000000000000000000000000000000000000000000000000000000000000000000000000000, 9365303966680000000000000000000000000000000000000000000000000000000000000000000000000000000, 9368455612860000000000000000000000000000000000000000000000000000000000000000000000000000000, 9371292240410000000000000000000000000000000000000000000000000000000000000000000000000000000, 9373884972810000000000000000000000000000000000000000000000000000000000000000000000000000000, 9376301667700000000000000000000000000000000000000000000000000000000000000000000000000000000, 9378589645220000000000000000000000000000000000000000000000000000000000000000000000000000000, 9380780543410000000000000000000000000000000000000000000000000000000000000000000000000000000, 9382895859100000000000000000000000000000000000000000000000000000000000000000000000000000000, 9384950651960000000000000000000000000000000000000000000000000000000000000000000000000000000, 9386955816010000000000000000000000000000000000000000000000000000000000000000000000000000000, 9388919469880000000000000000000000000000000000000000000000000000000000000000000000000000000, 9390847826660000000000000000000000000000000000000000000000000000000000000000000000000000000, 9392745753800000000000000000000000000000000000000000000000000000000000000000000000000000000, 9394617143940000000000000000000000000000000000000000000000000000000000000000000000000000000, 9396465167110000000000000000000000000000000000000000000000000000000000000000000000000000000, 9398292446620000000000000000000000000000000000000000000000000000000000000000000000000000000, 9400101184410000000000000000000000000000000000000000000000000000000000000000000000000000000, 9401893252300000000000000000000000000000000000000000000000000000000000000000000000000000000, 9403670259640000000000000000000000000000000000000000000000000000000000000000000000000000000, 9405433604270000000000000000000000000000000000000000000000000000000000000000000000000000000, 9407184511510000000000000000000000000000000000000000000000000000000000000000000000000000000, 9408924064400000000000000000000000000000000000000000000000000000000000000000000000000000000, 9410653227500000000000000000000000000000000000000000000000000000000000000000000000000000000, 9412372865640000000000000000000000000000000000000000000000000000000000000000000000000000000, 9414083759150000000000000000000000000000000000000000000000000000000000000000000000000000000, 9415786616000000000000000000000000000000000000000000000000000000000000000000000000000000000, 9417482081860000000000000000000000000000000000000000000000000000000000000000000000000000000, 9419170748260000000000000000000000000000000000000000000000000000000000000000000000000000000, 9420853159410000000000000000000000000000000000000000000000000000000000000000000000000000000, 9422529817890000000000000000000000000000000000000000000000000000000000000000000000000000000, 9424201189360000000000000000000000000000000000000000000000000000000000000000000000000000000, 9425867706590000000000000000000000000000000000000000000000000000000000000000000000000000000, 9427529772860000000000000000000000000000000000000000000000000000000000000000000000000000000, 9429187764810000000000000000000000000000000000000000000000000000000000000000000000000000000, 9430842034980000000000000000000000000000000000000000000000000000000000000000000000000000000, 9432492913850000000000000000000000000000000000000000000000000000000000000000000000000000000, 9434140711710000000000000000000000000000000000000000000000000000000000000000000000000000000, 9435785720220000000000000000000000000000000000000000000000000000000000000000000000000000000]),
  (751230861723000, [9308638902810000000000000000000000000000000000000000000000000000000000000000000000000000000, 9311224204250000000000000000000000000000000000000000000000000000000000000000000000000000000, 9314700200430000000000000000000000000000000000000000000000000000000000000000000000000000000, 9317946914680000000000000000000000000000000000000000000000000000000000000000000000000000000, 9320879852310000000000000000000000000000000000000000000000000000000000000000000000000000000, 9323570416590000000000000000000000000000000000000000000000000000000000000000000000000000000, 9326086300690000000000000000000000000000000000000000000000000000000000000000000000000000000, 9328474605570000000000000000000000000000000000000000000000000000000000000000000000000000000, 9330766777940000000000000000000000000000000000000000000000000000000000000000000000000000000, 9332984162330000000000000000000000000000000000000000000000000000000000000000000000000000000, 9335141700860000000000000000000000000000000000000000000000000000000000000000000000000000000, 9337250197910000000000000000000000000000000000000000000000000000000000000000000000000000000, 9339317704020000000000000000000000000000000000000000000000000000000000000000000000000000000, 9341350380570000000000000000000000000000000000000000000000000000000000000000000000000000000, 9343353055650000000000000000000000000000000000000000000000000000000000000000000000000000000, 9345329591780000000000000000000000000000000000000000000000000000000000000000000000000000000, 9347283135850000000000000000000000000000000000000000000000000000000000000000000000000000000, 9349216293310000000000000000000000000000000000000000000000000000000000000000000000000000000, 9351131252250000000000000000000000000000000000000000000000000000000000000000000000000000000, 9353029873780000000000000000000000000000000000000000000000000000000000000000000000000000000, 9354913758890000000000000000000000000000000000000000000000000000000000000000000000000000000, 9356784298940000000000000000000000000000000000000000000000000000000000000000000000000000000, 9358642714270000000000000000000000000000000000000000000000000000000000000000000000000000000, 9360490084110000000000000000000000000000000000000000000000000000000000000000000000000000000, 9362327370070000000000000000000000000000000000000000000000000000000000000000000000000000000, 9364155434850000000000000000000000000000000000000000000000000000000000000000000000000000000, 9365975057150000000000000000000000000000000000000000000000000000000000000000000000000000000, 9367786943780000000000000000000000000000000000000000000000000000000000000000000000000000000, 9369591739550000000000000000000000000000000000000000000000000000000000000000000000000000000, 9371390035360000000000000000000000000000000000000000000000000000000000000000000000000000000, 9373182374930000000000000000000000000000000000000000000000000000000000000000000000000000000, 9374969260370000000000000000000000000000000000000000000000000000000000000000000000000000000, 9376751156870000000000000000000000000000000000000000000000000000000000000000000000000000000, 9378528496630000000000000000000000000000000000000000000000000000000000000000000000000000000, 9380301682210000000000000000000000000000000000000000000000000000000000000000000000000000000, 9382071089320000000000000000000000000000000000000000000000000000000000000000000000000000000, 9383837069290000000000000000000000000000000000000000000000000000000000000000000000000000000, 9385599951060000000000000000000000000000000000000000000000000000000000000000000000000000000, 9387360043050000000000000000000000000000000000000000000000000000000000000000000000000000000, 9389117634600000000000000000000000000000000000000000000000000000000000000000000000000000000]),
  (753334869739000, [9258486100440000000000000000000000000000000000000000000000000000000000000000000000000000000, 9261174061360000000000000000000000000000000000000000000000000000000000000000000000000000000, 9264745544540000000000000000000000000000000000000000000000000000000000000000000000000000000, 9268087699480000000000000000000000000000000000000000000000000000000000000000000000000000000, 9271117821260000000000000000000000000000000000000000000000000000000000000000000000000000000, 9273907377680000000000000000000000000000000000000000000000000000000000000000000000000000000, 9276523809580000000000000000000000000000000000000000000000000000000000000000000000000000000, 9279013966380000000000000000000000000000000000000000000000000000000000000000000000000000000, 9281409090400000000000000000000000000000000000000000000000000000000000000000000000000000000, 9283730366030000000000000000000000000000000000000000000000000000000000000000000000000000000, 9285992610860000000000000000000000000000000000000000000000000000000000000000000000000000000, 9288206532530000000000000000000000000000000000000000000000000000000000000000000000000000000, 9290380106380000000000000000000000000000000000000000000000000000000000000000000000000000000, 9292519435150000000000000000000000000000000000000000000000000000000000000000000000000000000, 9294629301040000000000000000000000000000000000000000000000000000000000000000000000000000000, 9296713530470000000000000000000000000000000000000000000000000000000000000000000000000000000, 9298775241790000000000000000000000000000000000000000000000000000000000000000000000000000000, 9300817017700000000000000000000000000000000000000000000000000000000000000000000000000000000, 9302841028130000000000000000000000000000000000000000000000000000000000000000000000000000000, 9304849119500000000000000000000000000000000000000000000000000000000000000000000000000000000, 9306842880980000000000000000000000000000000000000000000000000000000000000000000000000000000, 9308823694310000000000000000000000000000000000000000000000000000000000000000000000000000000, 9310792771970000000000000000000000000000000000000000000000000000000000000000000000000000000, 9312751186750000000000000000000000000000000000000000000000000000000000000000000000000000000, 9314699894970000000000000000000000000000000000000000000000000000000000000000000000000000000, 9316639754910000000000000000000000000000000000000000000000000000000000000000000000000000000, 9318571541570000000000000000000000000000000000000000000000000000000000000000000000000000000, 9320495958610000000000000000000000000000000000000000000000000000000000000000000000000000000, 9322413648060000000000000000000000000000000000000000000000000000000000000000000000000000000, 9324325198340000000000000000000000000000000000000000000000000000000000000000000000000000000, 9326231150820000000000000000000000000000000000000000000000000000000000000000000000000000000, 9328132005350000000000000000000000000000000000000000000000000000000000000000000000000000000, 9330028224780000000000000000000000000000000000000000000000000000000000000000000000000000000, 9331920238910000000000000000000000000000000000000000000000000000000000000000000000000000000, 9333808447650000000000000000000000000000000000000000000000000000000000000000000000000000000, 9335693223830000000000000000000000000000000000000000000000000000000000000000000000000000000, 9337574915520000000000000000000000000000000000000000000000000000000000000000000000000000000, 9339453848060000000000000000000000000000000000000000000000000000000000000000000000000000000, 9341330325760000000000000000000000000000000000000000000000000000000000000000000000000000000, 9343204633380000000000000000000000000000000000000000000000000000000000000000000000000000000]),
  (755438877756000, [9209078593640000000000000000000000000000000000000000000000000000000000000000000000000000000, 9211863361010000000000000000000000000000000000000000000000000000000000000000000000000000000, 9215528893720000000000000000000000000000000000000000000000000000000000000000000000000000000, 9218966767280000000000000000000000000000000000000000000000000000000000000000000000000000000, 9222095010420000000000000000000000000000000000000000000000000000000000000000000000000000000, 9224984802310000000000000000000000000000000000000000000000000000000000000000000000000000000, 9227703223710000000000000000000000000000000000000000000000000000000000000000000000000000000, 9230296842160000000000000000000000000000000000000000000000000000000000000000000000000000000, 9232796686410000000000000000000000000000000000000000000000000000000000000000000000000000000, 9235223775450000000000000000000000000000000000000000000000000000000000000000000000000000000, 9237592796490000000000000000000000000000000000000000000000000000000000000000000000000000000, 9239914353620000000000000000000000000000000000000000000000000000000000000000000000000000000, 9242196339620000000000000000000000000000000000000000000000000000000000000000000000000000000, 9244444791320000000000000000000000000000000000000000000000000000000000000000000000000000000, 9246664438100000000000000000000000000000000000000000000000000000000000000000000000000000000, 9248859063890000000000000000000000000000000000000000000000000000000000000000000000000000000, 9251031752660000000000000000000000000000000000000000000000000000000000000000000000000000000, 9253185059180000000000000000000000000000000000000000000000000000000000000000000000000000000, 9255321130480000000000000000000000000000000000000000000000000000000000000000000000000000000, 9257441794150000000000000000000000000000000000000000000000000000000000000000000000000000000, 9259548623700000000000000000000000000000000000000000000000000000000000000000000000000000000, 9261642987830000000000000000000000000000000000000000000000000000000000000000000000000000000, 9263726088020000000000000000000000000000000000000000000000000000000000000000000000000000000, 9265798987740000000000000000000000000000000000000000000000000000000000000000000000000000000, 9267862635350000000000000000000000000000000000000000000000000000000000000000000000000000000, 9269917882200000000000000000000000000000000000000000000000000000000000000000000000000000000, 9271965497200000000000000000000000000000000000000000000000000000000000000000000000000000000, 9274006178550000000000000000000000000000000000000000000000000000000000000000000000000000000, 9276040563280000000000000000000000000000000000000000000000000000000000000000000000000000000, 9278069235100000000000000000000000000000000000000000000000000000000000000000000000000000000, 9280092730870000000000000000000000000000000000000000000000000000000000000000000000000000000, 9282111545920000000000000000000000000000000000000000000000000000000000000000000000000000000, 9284126138570000000000000000000000000000000000000000000000000000000000000000000000000000000, 9286136933870000000000000000000000000000000000000000000000000000000000000000000000000000000, 9288144326750000000000000000000000000000000000000000000000000000000000000000000000000000000, 9290148684670000000000000000000000000000000000000000000000000000000000000000000000000000000, 9292150349940000000000000000000000000000000000000000000000000000000000000000000000000000000, 9294149641610000000000000000000000000000000000000000000000000000000000000000000000000000000, 9296146857150000000000000000000000000000000000000000000000000000000000000000000000000000000, 9298142273870000000000000000000000000000000000000000000000000000000000000000000000000000000]),
  (757542885772000, [9160509718150000000000000000000000000000000000000000000000000000000000000000000000000000000, 9163385799860000000000000000000000000000000000000000000000000000000000000000000000000000000, 9167143696750000000000000000000000000000000000000000000000000000000000000000000000000000000, 9170677525670000000000000000000000000000000000000000000000000000000000000000000000000000000, 9173904866670000000000000000000000000000000000000000000000000000000000000000000000000000000, 9176896206350000000000000000000000000000000000000000000000000000000000000000000000000000000, 9179718144040000000000000000000000000000000000000000000000000000000000000000000000000000000, 9182416931590000000000000000000000000000000000000000000000000000000000000000000000000000000, 9185023374360000000000000000000000000000000000000000000000000000000000000000000000000000000, 9187558320500000000000000000000000000000000000000000000000000000000000000000000000000000000, 9190036320730000000000000000000000000000000000000000000000000000000000000000000000000000000, 9192467868300000000000000000000000000000000000000000000000000000000000000000000000000000000, 9194860765620000000000000000000000000000000000000000000000000000000000000000000000000000000, 9197220975730000000000000000000000000000000000000000000000000000000000000000000000000000000, 9199553167740000000000000000000000000000000000000000000000000000000000000000000000000000000, 9201861076220000000000000000000000000000000000000000000000000000000000000000000000000000000, 9204147744540000000000000000000000000000000000000000000000000000000000000000000000000000000, 9206415693900000000000000000000000000000000000000000000000000000000000000000000000000000000, 9208667043370000000000000000000000000000000000000000000000000000000000000000000000000000000, 9210903597150000000000000000000000000000000000000000000000000000000000000000000000000000000, 9213126908980000000000000000000000000000000000000000000000000000000000000000000000000000000, 9215338330740000000000000000000000000000000000000000000000000000000000000000000000000000000, 9217539049480000000000000000000000000000000000000000000000000000000000000000000000000000000, 9219730116150000000000000000000000000000000000000000000000000000000000000000000000000000000, 9221912468080000000000000000000000000000000000000000000000000000000000000000000000000000000, 9224086946870000000000000000000000000000000000000000000000000000000000000000000000000000000, 9226254312580000000000000000000000000000000000000000000000000000000000000000000000000000000, 9228415255250000000000000000000000000000000000000000000000000000000000000000000000000000000, 9230570404260000000000000000000000000000000000000000000000000000000000000000000000000000000, 9232720336000000000000000000000000000000000000000000000000000000000000000000000000000000000, 9234865580110000000000000000000000000000000000000000000000000000000000000000000000000000000, 9237006624730000000000000000000000000000000000000000000000000000000000000000000000000000000, 9239143920850000000000000000000000000000000000000000000000000000000000000000000000000000000, 9241277885940000000000000000000000000000000000000000000000000000000000000000000000000000000, 9243408906950000000000000000000000000000000000000000000000000000000000000000000000000000000, 9245537342940000000000000000000000000000000000000000000000000000000000000000000000000000000, 9247663527260000000000000000000000000000000000000000000000000000000000000000000000000000000, 9249787769350000000000000000000000000000000000000000000000000000000000000000000000000000000, 9251910356420000000000000000000000000000000000000000000000000000000000000000000000000000000, 9254031554730000000000000000000000000000000000000000000000000000000000000000000000000000000]),
  (759646893788000, [9112874950560000000000000000000000000000000000000000000000000000000000000000000000000000000, 9115839100890000000000000000000000000000000000000000000000000000000000000000000000000000000, 9119688104270000000000000000000000000000000000000000000000000000000000000000000000000000000, 9123318204260000000000000000000000000000000000000000000000000000000000000000000000000000000, 9126645662430000000000000000000000000000000000000000000000000000000000000000000000000000000, 9129739928050000000000000000000000000000000000000000000000000000000000000000000000000000000, 9132667001300000000000000000000000000000000000000000000000000000000000000000000000000000000, 9135472779740000000000000000000000000000000000000000000000000000000000000000000000000000000, 9138187831570000000000000000000000000000000000000000000000000000000000000000000000000000000, 9140832826020000000000000000000000000000000000000000000000000000000000000000000000000000000, 9143422169510000000000000000000000000000000000000000000000000000000000000000000000000000000, 9145966235910000000000000000000000000000000000000000000000000000000000000000000000000000000, 9148472728430000000000000000000000000000000000000000000000000000000000000000000000000000000, 9150947527730000000000000000000000000000000000000000000000000000000000000000000000000000000, 9153395234570000000000000000000000000000000000000000000000000000000000000000000000000000000, 9155819526760000000000000000000000000000000000000000000000000000000000000000000000000000000, 9158223400340000000000000000000000000000000000000000000000000000000000000000000000000000000, 9160609336880000000000000000000000000000000000000000000000000000000000000000000000000000000, 9162979422070000000000000000000000000000000000000000000000000000000000000000000000000000000, 9165335431740000000000000000000000000000000000000000000000000000000000000000000000000000000, 9167678895370000000000000000000000000000000000000000000000000000000000000000000000000000000, 9170011143870000000000000000000000000000000000000000000000000000000000000000000000000000000, 9172333346010000000000000000000000000000000000000000000000000000000000000000000000000000000, 9174646536600000000000000000000000000000000000000000000000000000000000000000000000000000000, 9176951638550000000000000000000000000000000000000000000000000000000000000000000000000000000, 9179249480370000000000000000000000000000000000000000000000000000000000000000000000000000000, 9181540810050000000000000000000000000000000000000000000000000000000000000000000000000000000, 9183826306300000000000000000000000000000000000000000000000000000000000000000000000000000000, 9186106587690000000000000000000000000000000000000000000000000000000000000000000000000000000, 9188382220040000000000000000000000000000000000000000000000000000000000000000000000000000000, 9190653722540000000000000000000000000000000000000000000000000000000000000000000000000000000, 9192921572810000000000000000000000000000000000000000000000000000000000000000000000000000000, 9195186211050000000000000000000000000000000000000000000000000000000000000000000000000000000, 9197448043570000000000000000000000000000000000000000000000000000000000000000000000000000000, 9199707445690000000000000000000000000000000000000000000000000000000000000000000000000000000, 9201964764210000000000000000000000000000000000000000000000000000000000000000000000000000000, 9204220319530000000000000000000000000000000000000000000000000000000000000000000000000000000, 9206474407370000000000000000000000000000000000000000000000000000000000000000000000000000000, 9208727300340000000000000000000000000000000000000000000000000000000000000000000000000000000, 9210979249250000000000000000000000000000000000000000000000000000000000000000000000000000000]),
  (761750901804000, [9066273931640000000000000000000000000000000000000000000000000000000000000000000000000000000, 9069325460630000000000000000000000000000000000000000000000000000000000000000000000000000000, 9073265188600000000000000000000000000000000000000000000000000000000000000000000000000000000, 9076992082520000000000000000000000000000000000000000000000000000000000000000000000000000000, 9080420751610000000000000000000000000000000000000000000000000000000000000000000000000000000, 9083619401940000000000000000000000000000000000000000000000000000000000000000000000000000000, 9086653339950000000000000000000000000000000000000000000000000000000000000000000000000000000, 9089568068670000000000000000000000000000000000000000000000000000000000000000000000000000000, 9092393900230000000000000000000000000000000000000000000000000000000000000000000000000000000, 9095151312690000000000000000000000000000000000000000000000000000000000000000000000000000000, 9097854557290000000000000000000000000000000000000000000000000000000000000000000000000000000, 9100513878010000000000000000000000000000000000000000000000000000000000000000000000000000000, 9103136868660000000000000000000000000000000000000000000000000000000000000000000000000000000, 9105729317980000000000000000000000000000000000000000000000000000000000000000000000000000000, 9108295749580000000000000000000000000000000000000000000000000000000000000000000000000000000, 9110839776510000000000000000000000000000000000000000000000000000000000000000000000000000000, 9113364340290000000000000000000000000000000000000000000000000000000000000000000000000000000, 9115871876340000000000000000000000000000000000000000000000000000000000000000000000000000000, 9118364431050000000000000000000000000000000000000000000000000000000000000000000000000000000, 9120843746500000000000000000000000000000000000000000000000000000000000000000000000000000000, 9123311322960000000000000000000000000000000000000000000000000000000000000000000000000000000, 9125768465780000000000000000000000000000000000000000000000000000000000000000000000000000000, 9128216321130000000000000000000000000000000000000000000000000000000000000000000000000000000, 9130655903580000000000000000000000000000000000000000000000000000000000000000000000000000000, 9133088117660000000000000000000000000000000000000000000000000000000000000000000000000000000, 9135513774920000000000000000000000000000000000000000000000000000000000000000000000000000000, 9137933607470000000000000000000000000000000000000000000000000000000000000000000000000000000, 9140348278890000000000000000000000000000000000000000000000000000000000000000000000000000000, 9142758393060000000000000000000000000000000000000000000000000000000000000000000000000000000, 9145164501350000000000000000000000000000000000000000000000000000000000000000000000000000000, 9147567108460000000000000000000000000000000000000000000000000000000000000000000000000000000, 9149966677320000000000000000000000000000000000000000000000000000000000000000000000000000000, 9152363633080000000000000000000000000000000000000000000000000000000000000000000000000000000, 9154758366460000000000000000000000000000000000000000000000000000000000000000000000000000000, 9157151236520000000000000000000000000000000000000000000000000000000000000000000000000000000, 9159542573020000000000000000000000000000000000000000000000000000000000000000000000000000000, 9161932678460000000000000000000000000000000000000000000000000000000000000000000000000000000, 9164321829700000000000000000000000000000000000000000000000000000000000000000000000000000000, 9166710279480000000000000000000000000000000000000000000000000000000000000000000000000000000, 9169098257660000000000000000000000000000000000000000000000000000000000000000000000000000000]),
  (763854909820000, [9020812602840000000000000000000000000000000000000000000000000000000000000000000000000000000, 9023952334610000000000000000000000000000000000000000000000000000000000000000000000000000000, 9027983287620000000000000000000000000000000000000000000000000000000000000000000000000000000, 9031807767830000000000000000000000000000000000000000000000000000000000000000000000000000000, 9035338857910000000000000000000000000000000000000000000000000000000000000000000000000000000, 9038643462800000000000000000000000000000000000000000000000000000000000000000000000000000000, 9041786133740000000000000000000000000000000000000000000000000000000000000000000000000000000, 9044811941270000000000000000000000000000000000000000000000000000000000000000000000000000000, 9047750917830000000000000000000000000000000000000000000000000000000000000000000000000000000, 9050623332890000000000000000000000000000000000000000000000000000000000000000000000000000000, 9053443267880000000000000000000000000000000000000000000000000000000000000000000000000000000, 9056220823810000000000000000000000000000000000000000000000000000000000000000000000000000000, 9058963473300000000000000000000000000000000000000000000000000000000000000000000000000000000, 9061676902500000000000000000000000000000000000000000000000000000000000000000000000000000000, 9064365548340000000000000000000000000000000000000000000000000000000000000000000000000000000, 9067032950470000000000000000000000000000000000000000000000000000000000000000000000000000000, 9069681988150000000000000000000000000000000000000000000000000000000000000000000000000000000, 9072315043630000000000000000000000000000000000000000000000000000000000000000000000000000000, 9074934117590000000000000000000000000000000000000000000000000000000000000000000000000000000, 9077540912490000000000000000000000000000000000000000000000000000000000000000000000000000000, 9080136893910000000000000000000000000000000000000000000000000000000000000000000000000000000, 9082723336490000000000000000000000000000000000000000000000000000000000000000000000000000000, 9085301358900000000000000000000000000000000000000000000000000000000000000000000000000000000, 9087871950730000000000000000000000000000000000000000000000000000000000000000000000000000000, 9090435993520000000000000000000000000000000000000000000000000000000000000000000000000000000, 9092994277290000000000000000000000000000000000000000000000000000000000000000000000000000000, 9095547513710000000000000000000000000000000000000000000000000000000000000000000000000000000, 9098096346590000000000000000000000000000000000000000000000000000000000000000000000000000000, 9100641360420000000000000000000000000000000000000000000000000000000000000000000000000000000, 9103183087260000000000000000000000000000000000000000000000000000000000000000000000000000000, 9105722012360000000000000000000000000000000000000000000000000000000000000000000000000000000, 9108258578830000000000000000000000000000000000000000000000000000000000000000000000000000000, 9110793191410000000000000000000000000000000000000000000000000000000000000000000000000000000, 9113326219690000000000000000000000000000000000000000000000000000000000000000000000000000000, 9115858000730000000000000000000000000000000000000000000000000000000000000000000000000000000, 9118388841360000000000000000000000000000000000000000000000000000000000000000000000000000000, 9120919019990000000000000000000000000000000000000000000000000000000000000000000000000000000, 9123448788340000000000000000000000000000000000000000000000000000000000000000000000000000000, 9125978372760000000000000000000000000000000000000000000000000000000000000000000000000000000, 9128507975530000000000000000000000000000000000000000000000000000000000000000000000000000000]),
  (765958917836000, [8976604496090000000000000000000000000000000000000000000000000000000000000000000000000000000, 8979833301590000000000000000000000000000000000000000000000000000000000000000000000000000000, 8983956453870000000000000000000000000000000000000000000000000000000000000000000000000000000, 8987879540120000000000000000000000000000000000000000000000000000000000000000000000000000000, 8991514408500000000000000000000000000000000000000000000000000000000000000000000000000000000, 8994926688070000000000000000000000000000000000000000000000000000000000000000000000000000000, 8998180138830000000000000000000000000000000000000000000000000000000000000000000000000000000, 9001319363430000000000000000000000000000000000000000000000000000000000000000000000000000000, 9004374086380000000000000000000000000000000000000000000000000000000000000000000000000000000, 9007364345870000000000000000000000000000000000000000000000000000000000000000000000000000000, 9010304034720000000000000000000000000000000000000000000000000000000000000000000000000000000, 9013203095160000000000000000000000000000000000000000000000000000000000000000000000000000000, 9016068865090000000000000000000000000000000000000000000000000000000000000000000000000000000, 9018906916310000000000000000000000000000000000000000000000000000000000000000000000000000000, 9021721588680000000000000000000000000000000000000000000000000000000000000000000000000000000, 9024516339250000000000000000000000000000000000000000000000000000000000000000000000000000000, 9027293976670000000000000000000000000000000000000000000000000000000000000000000000000000000, 9030056822440000000000000000000000000000000000000000000000000000000000000000000000000000000, 9032806824570000000000000000000000000000000000000000000000000000000000000000000000000000000, 9035545639400000000000000000000000000000000000000000000000000000000000000000000000000000000, 9038274691690000000000000000000000000000000000000000000000000000000000000000000000000000000, 9040995219560000000000000000000000000000000000000000000000000000000000000000000000000000000, 9043708308540000000000000000000000000000000000000000000000000000000000000000000000000000000, 9046414917720000000000000000000000000000000000000000000000000000000000000000000000000000000, 9049115900190000000000000000000000000000000000000000000000000000000000000000000000000000000, 9051812018960000000000000000000000000000000000000000000000000000000000000000000000000000000, 9054503959700000000000000000000000000000000000000000000000000000000000000000000000000000000, 9057192340800000000000000000000000000000000000000000000000000000000000000000000000000000000, 9059877721570000000000000000000000000000000000000000000000000000000000000000000000000000000, 9062560608770000000000000000000000000000000000000000000000000000000000000000000000000000000, 9065241462020000000000000000000000000000000000000000000000000000000000000000000000000000000, 9067920698160000000000000000000000000000000000000000000000000000000000000000000000000000000, 9070598694920000000000000000000000000000000000000000000000000000000000000000000000000000000, 9073275793890000000000000000000000000000000000000000000000000000000000000000000000000000000, 9075952303050000000000000000000000000000000000000000000000000000000000000000000000000000000, 9078628498940000000000000000000000000000000000000000000000000000000000000000000000000000000, 9081304628410000000000000000000000000000000000000000000000000000000000000000000000000000000, 9083980910290000000000000000000000000000000000000000000000000000000000000000000000000000000, 9086657536690000000000000000000000000000000000000000000000000000000000000000000000000000000, 9089334674260000000000000000000000000000000000000000000000000000000000000000000000000000000]),
  (768062925852000, [8933770830770000000000000000000000000000000000000000000000000000000000000000000000000000000, 8937088687590000000000000000000000000000000000000000000000000000000000000000000000000000000, 8941304928450000000000000000000000000000000000000000000000000000000000000000000000000000000, 8945327751630000000000000000000000000000000000000000000000000000000000000000000000000000000, 8949067916820000000000000000000000000000000000000000000000000000000000000000000000000000000, 8952589785040000000000000000000000000000000000000000000000000000000000000000000000000000000, 8955956290510000000000000000000000000000000000000000000000000000000000000000000000000000000, 8959211529880000000000000000000000000000000000000000000000000000000000000000000000000000000, 8962384885840000000000000000000000000000000000000000000000000000000000000000000000000000000, 8965496137130000000000000000000000000000000000000000000000000000000000000000000000000000000, 8968558965290000000000000000000000000000000000000000000000000000000000000000000000000000000, 8971583135440000000000000000000000000000000000000000000000000000000000000000000000000000000, 8974575835640000000000000000000000000000000000000000000000000000000000000000000000000000000, 8977542510550000000000000000000000000000000000000000000000000000000000000000000000000000000, 8980487391800000000000000000000000000000000000000000000000000000000000000000000000000000000, 8983413843980000000000000000000000000000000000000000000000000000000000000000000000000000000, 8986324596160000000000000000000000000000000000000000000000000000000000000000000000000000000, 8989221900880000000000000000000000000000000000000000000000000000000000000000000000000000000, 8992107645780000000000000000000000000000000000000000000000000000000000000000000000000000000, 8994983433850000000000000000000000000000000000000000000000000000000000000000000000000000000, 8997850642150000000000000000000000000000000000000000000000000000000000000000000000000000000, 9000710465550000000000000000000000000000000000000000000000000000000000000000000000000000000, 9003563949860000000000000000000000000000000000000000000000000000000000000000000000000000000, 9006412017160000000000000000000000000000000000000000000000000000000000000000000000000000000, 9009255485510000000000000000000000000000000000000000000000000000000000000000000000000000000, 9012095084280000000000000000000000000000000000000000000000000000000000000000000000000000000, 9014931466350000000000000000000000000000000000000000000000000000000000000000000000000000000, 9017765217740000000000000000000000000000000000000000000000000000000000000000000000000000000, 9020596865360000000000000000000000000000000000000000000000000000000000000000000000000000000, 9023426883260000000000000000000000000000000000000000000000000000000000000000000000000000000, 9026255697740000000000000000000000000000000000000000000000000000000000000000000000000000000, 9029083691440000000000000000000000000000000000000000000000000000000000000000000000000000000, 9031911206840000000000000000000000000000000000000000000000000000000000000000000000000000000, 9034738549070000000000000000000000000000000000000000000000000000000000000000000000000000000, 9037565988300000000000000000000000000000000000000000000000000000000000000000000000000000000, 9040393761830000000000000000000000000000000000000000000000000000000000000000000000000000000, 9043222075850000000000000000000000000000000000000000000000000000000000000000000000000000000, 9046051106960000000000000000000000000000000000000000000000000000000000000000000000000000000, 9048881003570000000000000000000000000000000000000000000000000000000000000000000000000000000, 9051711887160000000000000000000000000000000000000000000000000000000000000000000000000000000]),
  (770166933868000, [8892439819290000000000000000000000000000000000000000000000000000000000000000000000000000000, 8895845788830000000000000000000000000000000000000000000000000000000000000000000000000000000, 8900155557030000000000000000000000000000000000000000000000000000000000000000000000000000000, 8904279256130000000000000000000000000000000000000000000000000000000000000000000000000000000, 8908126411820000000000000000000000000000000000000000000000000000000000000000000000000000000, 8911760027420000000000000000000000000000000000000000000000000000000000000000000000000000000, 8915242149790000000000000000000000000000000000000000000000000000000000000000000000000000000, 8918616319750000000000000000000000000000000000000000000000000000000000000000000000000000000, 8921911536650000000000000000000000000000000000000000000000000000000000000000000000000000000, 8925147286600000000000000000000000000000000000000000000000000000000000000000000000000000000, 8928337014020000000000000000000000000000000000000000000000000000000000000000000000000000000, 8931490286650000000000000000000000000000000000000000000000000000000000000000000000000000000, 8934614126430000000000000000000000000000000000000000000000000000000000000000000000000000000, 8937713837250000000000000000000000000000000000000000000000000000000000000000000000000000000, 8940793530690000000000000000000000000000000000000000000000000000000000000000000000000000000, 8943856468250000000000000000000000000000000000000000000000000000000000000000000000000000000, 8946905289770000000000000000000000000000000000000000000000000000000000000000000000000000000, 8949942169790000000000000000000000000000000000000000000000000000000000000000000000000000000, 8952968927070000000000000000000000000000000000000000000000000000000000000000000000000000000, 8955987103080000000000000000000000000000000000000000000000000000000000000000000000000000000, 8958998019170000000000000000000000000000000000000000000000000000000000000000000000000000000, 8962002819180000000000000000000000000000000000000000000000000000000000000000000000000000000, 8965002501390000000000000000000000000000000000000000000000000000000000000000000000000000000, 8967997943050000000000000000000000000000000000000000000000000000000000000000000000000000000, 8970989919220000000000000000000000000000000000000000000000000000000000000000000000000000000, 8973979117500000000000000000000000000000000000000000000000000000000000000000000000000000000, 8976966149610000000000000000000000000000000000000000000000000000000000000000000000000000000, 8979951560560000000000000000000000000000000000000000000000000000000000000000000000000000000, 8982935835980000000000000000000000000000000000000000000000000000000000000000000000000000000, 8985919407990000000000000000000000000000000000000000000000000000000000000000000000000000000, 8988902660030000000000000000000000000000000000000000000000000000000000000000000000000000000, 8991885930740000000000000000000000000000000000000000000000000000000000000000000000000000000, 8994869517220000000000000000000000000000000000000000000000000000000000000000000000000000000, 8997853677750000000000000000000000000000000000000000000000000000000000000000000000000000000, 9000838634120000000000000000000000000000000000000000000000000000000000000000000000000000000, 9003824573570000000000000000000000000000000000000000000000000000000000000000000000000000000, 9006811650600000000000000000000000000000000000000000000000000000000000000000000000000000000, 9009799988510000000000000000000000000000000000000000000000000000000000000000000000000000000, 9012789680830000000000000000000000000000000000000000000000000000000000000000000000000000000, 9015780792630000000000000000000000000000000000000000000000000000000000000000000000000000000]),
  (772270941884000, [8852745976230000000000000000000000000000000000000000000000000000000000000000000000000000000, 8856238813390000000000000000000000000000000000000000000000000000000000000000000000000000000, 8860642127400000000000000000000000000000000000000000000000000000000000000000000000000000000, 8864867853460000000000000000000000000000000000000000000000000000000000000000000000000000000, 8868823913810000000000000000000000000000000000000000000000000000000000000000000000000000000, 8872571747380000000000000000000000000000000000000000000000000000000000000000000000000000000, 8876172406650000000000000000000000000000000000000000000000000000000000000000000000000000000, 8879668807880000000000000000000000000000000000000000000000000000000000000000000000000000000, 8883089517070000000000000000000000000000000000000000000000000000000000000000000000000000000, 8886453690620000000000000000000000000000000000000000000000000000000000000000000000000000000, 8889774508170000000000000000000000000000000000000000000000000000000000000000000000000000000, 8893061318950000000000000000000000000000000000000000000000000000000000000000000000000000000, 8896320961870000000000000000000000000000000000000000000000000000000000000000000000000000000, 8899558585780000000000000000000000000000000000000000000000000000000000000000000000000000000, 8902778169740000000000000000000000000000000000000000000000000000000000000000000000000000000, 8905982860790000000000000000000000000000000000000000000000000000000000000000000000000000000, 8909175198960000000000000000000000000000000000000000000000000000000000000000000000000000000, 8912357270750000000000000000000000000000000000000000000000000000000000000000000000000000000, 8915530816410000000000000000000000000000000000000000000000000000000000000000000000000000000, 8918697306420000000000000000000000000000000000000000000000000000000000000000000000000000000, 8921857997190000000000000000000000000000000000000000000000000000000000000000000000000000000, 8925013972170000000000000000000000000000000000000000000000000000000000000000000000000000000, 8928166172800000000000000000000000000000000000000000000000000000000000000000000000000000000, 8931315421910000000000000000000000000000000000000000000000000000000000000000000000000000000, 8934462441840000000000000000000000000000000000000000000000000000000000000000000000000000000, 8937607868380000000000000000000000000000000000000000000000000000000000000000000000000000000, 8940752261750000000000000000000000000000000000000000000000000000000000000000000000000000000, 8943896115250000000000000000000000000000000000000000000000000000000000000000000000000000000, 8947039862160000000000000000000000000000000000000000000000000000000000000000000000000000000, 8950183881310000000000000000000000000000000000000000000000000000000000000000000000000000000, 8953328501520000000000000000000000000000000000000000000000000000000000000000000000000000000, 8956474005380000000000000000000000000000000000000000000000000000000000000000000000000000000, 8959620632280000000000000000000000000000000000000000000000000000000000000000000000000000000, 8962768581100000000000000000000000000000000000000000000000000000000000000000000000000000000, 8965918012410000000000000000000000000000000000000000000000000000000000000000000000000000000, 8969069050490000000000000000000000000000000000000000000000000000000000000000000000000000000, 8972221785130000000000000000000000000000000000000000000000000000000000000000000000000000000, 8975376273260000000000000000000000000000000000000000000000000000000000000000000000000000000, 8978532540470000000000000000000000000000000000000000000000000000000000000000000000000000000, 8981690582480000000000000000000000000000000000000000000000000000000000000000000000000000000]),
  (774374949900000, [8814830106860000000000000000000000000000000000000000000000000000000000000000000000000000000, 8818408859190000000000000000000000000000000000000000000000000000000000000000000000000000000, 8822905695340000000000000000000000000000000000000000000000000000000000000000000000000000000, 8827234765390000000000000000000000000000000000000000000000000000000000000000000000000000000, 8831301966940000000000000000000000000000000000000000000000000000000000000000000000000000000, 8835166891360000000000000000000000000000000000000000000000000000000000000000000000000000000, 8838889446950000000000000000000000000000000000000000000000000000000000000000000000000000000, 8842511837820000000000000000000000000000000000000000000000000000000000000000000000000000000, 8846062140150000000000000000000000000000000000000000000000000000000000000000000000000000000, 8849559142090000000000000000000000000000000000000000000000000000000000000000000000000000000, 8853015731000000000000000000000000000000000000000000000000000000000000000000000000000000000, 8856441016740000000000000000000000000000000000000000000000000000000000000000000000000000000, 8859841638180000000000000000000000000000000000000000000000000000000000000000000000000000000, 8863222574570000000000000000000000000000000000000000000000000000000000000000000000000000000, 8866587659170000000000000000000000000000000000000000000000000000000000000000000000000000000, 8869939912270000000000000000000000000000000000000000000000000000000000000000000000000000000, 8873281762310000000000000000000000000000000000000000000000000000000000000000000000000000000, 8876615196420000000000000000000000000000000000000000000000000000000000000000000000000000000, 8879941865140000000000000000000000000000000000000000000000000000000000000000000000000000000, 8883263156970000000000000000000000000000000000000000000000000000000000000000000000000000000, 8886580252230000000000000000000000000000000000000000000000000000000000000000000000000000000, 8889894162840000000000000000000000000000000000000000000000000000000000000000000000000000000, 8893205761910000000000000000000000000000000000000000000000000000000000000000000000000000000, 8896515806210000000000000000000000000000000000000000000000000000000000000000000000000000000, 8899824953280000000000000000000000000000000000000000000000000000000000000000000000000000000, 8903133774670000000000000000000000000000000000000000000000000000000000000000000000000000000, 8906442766280000000000000000000000000000000000000000000000000000000000000000000000000000000, 8909752356470000000000000000000000000000000000000000000000000000000000000000000000000000000, 8913062912560000000000000000000000000000000000000000000000000000000000000000000000000000000, 8916374746000000000000000000000000000000000000000000000000000000000000000000000000000000000, 8919688116710000000000000000000000000000000000000000000000000000000000000000000000000000000, 8923003236520000000000000000000000000000000000000000000000000000000000000000000000000000000, 8926320272250000000000000000000000000000000000000000000000000000000000000000000000000000000, 8929639348260000000000000000000000000000000000000000000000000000000000000000000000000000000, 8932960548740000000000000000000000000000000000000000000000000000000000000000000000000000000, 8936283919760000000000000000000000000000000000000000000000000000000000000000000000000000000, 8939609471170000000000000000000000000000000000000000000000000000000000000000000000000000000, 8942937178420000000000000000000000000000000000000000000000000000000000000000000000000000000, 8946266984210000000000000000000000000000000000000000000000000000000000000000000000000000000, 8949598800180000000000000000000000000000000000000000000000000000000000000000000000000000000]),
  (776478957916000, [8778840108160000000000000000000000000000000000000000000000000000000000000000000000000000000, 8782504224010000000000000000000000000000000000000000000000000000000000000000000000000000000, 8787095020380000000000000000000000000000000000000000000000000000000000000000000000000000000, 8791529188950000000000000000000000000000000000000000000000000000000000000000000000000000000, 8795710248290000000000000000000000000000000000000000000000000000000000000000000000000000000, 8799695650740000000000000000000000000000000000000000000000000000000000000000000000000000000, 8803543990130000000000000000000000000000000000000000000000000000000000000000000000000000000, 8807296661760000000000000000000000000000000000000000000000000000000000000000000000000000000, 8810981194800000000000000000000000000000000000000000000000000000000000000000000000000000000, 8814615972960000000000000000000000000000000000000000000000000000000000000000000000000000000, 8818213566040000000000000000000000000000000000000000000000000000000000000000000000000000000, 8821782824970000000000000000000000000000000000000000000000000000000000000000000000000000000, 8825330172040000000000000000000000000000000000000000000000000000000000000000000000000000000, 8828860401790000000000000000000000000000000000000000000000000000000000000000000000000000000, 8832377187570000000000000000000000000000000000000000000000000000000000000000000000000000000, 8835883409260000000000000000000000000000000000000000000000000000000000000000000000000000000, 8839381370390000000000000000000000000000000000000000000000000000000000000000000000000000000, 8842872945520000000000000000000000000000000000000000000000000000000000000000000000000000000, 8846359682370000000000000000000000000000000000000000000000000000000000000000000000000000000, 8849842874180000000000000000000000000000000000000000000000000000000000000000000000000000000, 8853323611810000000000000000000000000000000000000000000000000000000000000000000000000000000, 8856802821900000000000000000000000000000000000000000000000000000000000000000000000000000000, 8860281295240000000000000000000000000000000000000000000000000000000000000000000000000000000, 8863759708000000000000000000000000000000000000000000000000000000000000000000000000000000000, 8867238638030000000000000000000000000000000000000000000000000000000000000000000000000000000, 8870718577250000000000000000000000000000000000000000000000000000000000000000000000000000000, 8874199941350000000000000000000000000000000000000000000000000000000000000000000000000000000, 8877683077430000000000000000000000000000000000000000000000000000000000000000000000000000000, 8881168270110000000000000000000000000000000000000000000000000000000000000000000000000000000, 8884655746410000000000000000000000000000000000000000000000000000000000000000000000000000000, 8888145679890000000000000000000000000000000000000000000000000000000000000000000000000000000, 8891638194060000000000000000000000000000000000000000000000000000000000000000000000000000000, 8895133365360000000000000000000000000000000000000000000000000000000000000000000000000000000, 8898631225840000000000000000000000000000000000000000000000000000000000000000000000000000000, 8902131765480000000000000000000000000000000000000000000000000000000000000000000000000000000, 8905634934480000000000000000000000000000000000000000000000000000000000000000000000000000000, 8909140645290000000000000000000000000000000000000000000000000000000000000000000000000000000, 8912648774680000000000000000000000000000000000000000000000000000000000000000000000000000000, 8916159165650000000000000000000000000000000000000000000000000000000000000000000000000000000, 8919671629380000000000000000000000000000000000000000000000000000000000000000000000000000000]),
  (778582965932000, [8744932086180000000000000000000000000000000000000000000000000000000000000000000000000000000, 8748681158560000000000000000000000000000000000000000000000000000000000000000000000000000000, 8753367222750000000000000000000000000000000000000000000000000000000000000000000000000000000, 8757908980730000000000000000000000000000000000000000000000000000000000000000000000000000000, 8762207276390000000000000000000000000000000000000000000000000000000000000000000000000000000, 8766317176690000000000000000000000000000000000000000000000000000000000000000000000000000000, 8770295802470000000000000000000000000000000000000000000000000000000000000000000000000000000, 8774183650850000000000000000000000000000000000000000000000000000000000000000000000000000000, 8778007654420000000000000000000000000000000000000000000000000000000000000000000000000000000, 8781785762430000000000000000000000000000000000000000000000000000000000000000000000000000000, 8785530205930000000000000000000000000000000000000000000000000000000000000000000000000000000, 8789249559280000000000000000000000000000000000000000000000000000000000000000000000000000000, 8792950011920000000000000000000000000000000000000000000000000000000000000000000000000000000, 8796636157950000000000000000000000000000000000000000000000000000000000000000000000000000000, 8800311495210000000000000000000000000000000000000000000000000000000000000000000000000000000, 8803978747640000000000000000000000000000000000000000000000000000000000000000000000000000000, 8807640078350000000000000000000000000000000000000000000000000000000000000000000000000000000, 8811297233670000000000000000000000000000000000000000000000000000000000000000000000000000000, 8814951642690000000000000000000000000000000000000000000000000000000000000000000000000000000, 8818604487320000000000000000000000000000000000000000000000000000000000000000000000000000000, 8822256752460000000000000000000000000000000000000000000000000000000000000000000000000000000, 8825909262590000000000000000000000000000000000000000000000000000000000000000000000000000000, 8829562708720000000000000000000000000000000000000000000000000000000000000000000000000000000, 8833217668510000000000000000000000000000000000000000000000000000000000000000000000000000000, 8836874621600000000000000000000000000000000000000000000000000000000000000000000000000000000, 8840533961240000000000000000000000000000000000000000000000000000000000000000000000000000000, 8844196003390000000000000000000000000000000000000000000000000000000000000000000000000000000, 8847860993920000000000000000000000000000000000000000000000000000000000000000000000000000000, 8851529114380000000000000000000000000000000000000000000000000000000000000000000000000000000, 8855200486750000000000000000000000000000000000000000000000000000000000000000000000000000000, 8858875177410000000000000000000000000000000000000000000000000000000000000000000000000000000, 8862553200630000000000000000000000000000000000000000000000000000000000000000000000000000000, 8866234521650000000000000000000000000000000000000000000000000000000000000000000000000000000, 8869919059430000000000000000000000000000000000000000000000000000000000000000000000000000000, 8873606689320000000000000000000000000000000000000000000000000000000000000000000000000000000, 8877297245470000000000000000000000000000000000000000000000000000000000000000000000000000000, 8880990523290000000000000000000000000000000000000000000000000000000000000000000000000000000, 8884686281750000000000000000000000000000000000000000000000000000000000000000000000000000000, 8888384245700000000000000000000000000000000000000000000000000000000000000000000000000000000, 8892084108100000000000000000000000000000000000000000000000000000000000000000000000000000000]),
  (780686973948000, [8713271249000000000000000000000000000000000000000000000000000000000000000000000000000000000, 8717104992620000000000000000000000000000000000000000000000000000000000000000000000000000000, 8721888705600000000000000000000000000000000000000000000000000000000000000000000000000000000, 8726541504420000000000000000000000000000000000000000000000000000000000000000000000000000000, 8730961231570000000000000000000000000000000000000000000000000000000000000000000000000000000, 8735200383410000000000000000000000000000000000000000000000000000000000000000000000000000000, 8739314487780000000000000000000000000000000000000000000000000000000000000000000000000000000, 8743343077900000000000000000000000000000000000000000000000000000000000000000000000000000000, 8747312455210000000000000000000000000000000000000000000000000000000000000000000000000000000, 8751240113620000000000000000000000000000000000000000000000000000000000000000000000000000000, 8755137928850000000000000000000000000000000000000000000000000000000000000000000000000000000, 8759014182730000000000000000000000000000000000000000000000000000000000000000000000000000000, 8762874815270000000000000000000000000000000000000000000000000000000000000000000000000000000, 8766724202890000000000000000000000000000000000000000000000000000000000000000000000000000000, 8770565650140000000000000000000000000000000000000000000000000000000000000000000000000000000, 8774401706770000000000000000000000000000000000000000000000000000000000000000000000000000000, 8778234376890000000000000000000000000000000000000000000000000000000000000000000000000000000, 8782065259700000000000000000000000000000000000000000000000000000000000000000000000000000000, 8785895646270000000000000000000000000000000000000000000000000000000000000000000000000000000, 8789726587330000000000000000000000000000000000000000000000000000000000000000000000000000000, 8793558941450000000000000000000000000000000000000000000000000000000000000000000000000000000, 8797393409940000000000000000000000000000000000000000000000000000000000000000000000000000000, 8801230562410000000000000000000000000000000000000000000000000000000000000000000000000000000, 8805070855780000000000000000000000000000000000000000000000000000000000000000000000000000000, 8808914648600000000000000000000000000000000000000000000000000000000000000000000000000000000, 8812762212060000000000000000000000000000000000000000000000000000000000000000000000000000000, 8816613738570000000000000000000000000000000000000000000000000000000000000000000000000000000, 8820469348540000000000000000000000000000000000000000000000000000000000000000000000000000000, 8824329096020000000000000000000000000000000000000000000000000000000000000000000000000000000, 8828192973340000000000000000000000000000000000000000000000000000000000000000000000000000000, 8832060915200000000000000000000000000000000000000000000000000000000000000000000000000000000, 8835932802250000000000000000000000000000000000000000000000000000000000000000000000000000000, 8839808464400000000000000000000000000000000000000000000000000000000000000000000000000000000, 8843687683920000000000000000000000000000000000000000000000000000000000000000000000000000000, 8847570198390000000000000000000000000000000000000000000000000000000000000000000000000000000, 8851455703560000000000000000000000000000000000000000000000000000000000000000000000000000000, 8855343856180000000000000000000000000000000000000000000000000000000000000000000000000000000, 8859234276710000000000000000000000000000000000000000000000000000000000000000000000000000000, 8863126552090000000000000000000000000000000000000000000000000000000000000000000000000000000, 8867020238400000000000000000000000000000000000000000000000000000000000000000000000000000000]),
  (782790981964000, [8684032761020000000000000000000000000000000000000000000000000000000000000000000000000000000, 8687951486770000000000000000000000000000000000000000000000000000000000000000000000000000000, 8692836299830000000000000000000000000000000000000000000000000000000000000000000000000000000, 8697604631500000000000000000000000000000000000000000000000000000000000000000000000000000000, 8702150882780000000000000000000000000000000000000000000000000000000000000000000000000000000, 8706524835600000000000000000000000000000000000000000000000000000000000000000000000000000000, 8710780353610000000000000000000000000000000000000000000000000000000000000000000000000000000, 8714955972370000000000000000000000000000000000000000000000000000000000000000000000000000000, 8719077345900000000000000000000000000000000000000000000000000000000000000000000000000000000, 8723161500980000000000000000000000000000000000000000000000000000000000000000000000000000000, 8727219945050000000000000000000000000000000000000000000000000000000000000000000000000000000, 8731260651690000000000000000000000000000000000000000000000000000000000000000000000000000000, 8735289293310000000000000000000000000000000000000000000000000000000000000000000000000000000, 8739310008660000000000000000000000000000000000000000000000000000000000000000000000000000000, 8743325887790000000000000000000000000000000000000000000000000000000000000000000000000000000, 8747339284260000000000000000000000000000000000000000000000000000000000000000000000000000000, 8751352020440000000000000000000000000000000000000000000000000000000000000000000000000000000, 8755365525060000000000000000000000000000000000000000000000000000000000000000000000000000000, 8759380927230000000000000000000000000000000000000000000000000000000000000000000000000000000, 8763399121820000000000000000000000000000000000000000000000000000000000000000000000000000000, 8767420815700000000000000000000000000000000000000000000000000000000000000000000000000000000, 8771446560940000000000000000000000000000000000000000000000000000000000000000000000000000000, 8775476778930000000000000000000000000000000000000000000000000000000000000000000000000000000, 8779511778370000000000000000000000000000000000000000000000000000000000000000000000000000000, 8783551768750000000000000000000000000000000000000000000000000000000000000000000000000000000, 8787596870700000000000000000000000000000000000000000000000000000000000000000000000000000000, 8791647124250000000000000000000000000000000000000000000000000000000000000000000000000000000, 8795702495430000000000000000000000000000000000000000000000000000000000000000000000000000000, 8799762881790000000000000000000000000000000000000000000000000000000000000000000000000000000, 8803828117280000000000000000000000000000000000000000000000000000000000000000000000000000000, 8807897976460000000000000000000000000000000000000000000000000000000000000000000000000000000, 8811972178450000000000000000000000000000000000000000000000000000000000000000000000000000000, 8816050390630000000000000000000000000000000000000000000000000000000000000000000000000000000, 8820132232200000000000000000000000000000000000000000000000000000000000000000000000000000000, 8824217277590000000000000000000000000000000000000000000000000000000000000000000000000000000, 8828305059850000000000000000000000000000000000000000000000000000000000000000000000000000000, 8832395073980000000000000000000000000000000000000000000000000000000000000000000000000000000, 8836486780210000000000000000000000000000000000000000000000000000000000000000000000000000000, 8840579607200000000000000000000000000000000000000000000000000000000000000000000000000000000, 8844672955260000000000000000000000000000000000000000000000000000000000000000000000000000000]),
  (784894989980000, [8657403191870000000000000000000000000000000000000000000000000000000000000000000000000000000, 8661408253340000000000000000000000000000000000000000000000000000000000000000000000000000000, 8666398523460000000000000000000000000000000000000000000000000000000000000000000000000000000, 8671287844710000000000000000000000000000000000000000000000000000000000000000000000000000000, 8675966597080000000000000000000000000000000000000000000000000000000000000000000000000000000, 8680481709500000000000000000000000000000000000000000000000000000000000000000000000000000000, 8684885348720000000000000000000000000000000000000000000000000000000000000000000000000000000, 8689215047170000000000000000000000000000000000000000000000000000000000000000000000000000000, 8693495809820000000000000000000000000000000000000000000000000000000000000000000000000000000, 8697744190340000000000000000000000000000000000000000000000000000000000000000000000000000000, 8701971315410000000000000000000000000000000000000000000000000000000000000000000000000000000, 8706184832470000000000000000000000000000000000000000000000000000000000000000000000000000000, 8710390124510000000000000000000000000000000000000000000000000000000000000000000000000000000, 8714591068180000000000000000000000000000000000000000000000000000000000000000000000000000000, 8718790512930000000000000000000000000000000000000000000000000000000000000000000000000000000, 8722990588860000000000000000000000000000000000000000000000000000000000000000000000000000000, 8727192908420000000000000000000000000000000000000000000000000000000000000000000000000000000, 8731398700780000000000000000000000000000000000000000000000000000000000000000000000000000000, 8735608903220000000000000000000000000000000000000000000000000000000000000000000000000000000, 8739824224030000000000000000000000000000000000000000000000000000000000000000000000000000000, 8744045186840000000000000000000000000000000000000000000000000000000000000000000000000000000, 8748272162090000000000000000000000000000000000000000000000000000000000000000000000000000000, 8752505389980000000000000000000000000000000000000000000000000000000000000000000000000000000, 8756744997380000000000000000000000000000000000000000000000000000000000000000000000000000000, 8760991010650000000000000000000000000000000000000000000000000000000000000000000000000000000, 8765243365660000000000000000000000000000000000000000000000000000000000000000000000000000000, 8769501915770000000000000000000000000000000000000000000000000000000000000000000000000000000, 8773766438500000000000000000000000000000000000000000000000000000000000000000000000000000000, 8778036641260000000000000000000000000000000000000000000000000000000000000000000000000000000, 8782312166510000000000000000000000000000000000000000000000000000000000000000000000000000000, 8786592596450000000000000000000000000000000000000000000000000000000000000000000000000000000, 8790877457470000000000000000000000000000000000000000000000000000000000000000000000000000000, 8795166224430000000000000000000000000000000000000000000000000000000000000000000000000000000, 8799458324820000000000000000000000000000000000000000000000000000000000000000000000000000000, 8803753142830000000000000000000000000000000000000000000000000000000000000000000000000000000, 8808050023350000000000000000000000000000000000000000000000000000000000000000000000000000000, 8812348275900000000000000000000000000000000000000000000000000000000000000000000000000000000, 8816647178540000000000000000000000000000000000000000000000000000000000000000000000000000000, 8820945981590000000000000000000000000000000000000000000000000000000000000000000000000000000, 8825243911400000000000000000000000000000000000000000000000000000000000000000000000000000000]),
  (786998997996000, [8633582488340000000000000000000000000000000000000000000000000000000000000000000000000000000, 8637676095150000000000000000000000000000000000000000000000000000000000000000000000000000000, 8642776830970000000000000000000000000000000000000000000000000000000000000000000000000000000, 8647793376430000000000000000000000000000000000000000000000000000000000000000000000000000000, 8652611400810000000000000000000000000000000000000000000000000000000000000000000000000000000, 8657274814790000000000000000000000000000000000000000000000000000000000000000000000000000000, 8661834068210000000000000000000000000000000000000000000000000000000000000000000000000000000, 8666325697270000000000000000000000000000000000000000000000000000000000000000000000000000000, 8670774061160000000000000000000000000000000000000000000000000000000000000000000000000000000, 8675195233360000000000000000000000000000000000000000000000000000000000000000000000000000000, 8679599943380000000000000000000000000000000000000000000000000000000000000000000000000000000, 8683995489070000000000000000000000000000000000000000000000000000000000000000000000000000000, 8688386935950000000000000000000000000000000000000000000000000000000000000000000000000000000, 8692777867650000000000000000000000000000000000000000000000000000000000000000000000000000000, 8697170860170000000000000000000000000000000000000000000000000000000000000000000000000000000, 8701567785940000000000000000000000000000000000000000000000000000000000000000000000000000000, 8705970012160000000000000000000000000000000000000000000000000000000000000000000000000000000, 8710378532150000000000000000000000000000000000000000000000000000000000000000000000000000000, 8714794053980000000000000000000000000000000000000000000000000000000000000000000000000000000, 8719217061190000000000000000000000000000000000000000000000000000000000000000000000000000000, 8723647855050000000000000000000000000000000000000000000000000000000000000000000000000000000, 8728086584640000000000000000000000000000000000000000000000000000000000000000000000000000000, 8732533268610000000000000000000000000000000000000000000000000000000000000000000000000000000, 8736987811350000000000000000000000000000000000000000000000000000000000000000000000000000000, 8741450015390000000000000000000000000000000000000000000000000000000000000000000000000000000, 8745919591260000000000000000000000000000000000000000000000000000000000000000000000000000000, 8750396165550000000000000000000000000000000000000000000000000000000000000000000000000000000, 8754879287910000000000000000000000000000000000000000000000000000000000000000000000000000000, 8759368437240000000000000000000000000000000000000000000000000000000000000000000000000000000, 8763863027410000000000000000000000000000000000000000000000000000000000000000000000000000000, 8768362412630000000000000000000000000000000000000000000000000000000000000000000000000000000, 8772865892640000000000000000000000000000000000000000000000000000000000000000000000000000000, 8777372717740000000000000000000000000000000000000000000000000000000000000000000000000000000, 8781882093730000000000000000000000000000000000000000000000000000000000000000000000000000000, 8786393186710000000000000000000000000000000000000000000000000000000000000000000000000000000, 8790905127810000000000000000000000000000000000000000000000000000000000000000000000000000000, 8795417017840000000000000000000000000000000000000000000000000000000000000000000000000000000, 8799927931760000000000000000000000000000000000000000000000000000000000000000000000000000000, 8804436923080000000000000000000000000000000000000000000000000000000000000000000000000000000, 8808943028030000000000000000000000000000000000000000000000000000000000000000000000000000000])]
noncomputable def ttSpec15 : List (Nat × List Nat) := [
  (789103006012000, [8612785540890000000000000000000000000000000000000000000000000000000000000000000000000000000, 8616970149180000000000000000000000000000000000000000000000000000000000000000000000000000000, 8622186762800000000000000000000000000000000000000000000000000000000000000000000000000000000, 8627337327350000000000000000000000000000000000000000000000000000000000000000000000000000000, 8632302068720000000000000000000000000000000000000000000000000000000000000000000000000000000, 8637121670150000000000000000000000000000000000000000000000000000000000000000000000000000000, 8641844825570000000000000000000000000000000000000000000000000000000000000000000000000000000, 8646507071990000000000000000000000000000000000000000000000000000000000000000000000000000000, 8651132117050000000000000000000000000000000000000000000000000000000000000000000000000000000, 8655735537700000000000000000000000000000000000000000000000000000000000000000000000000000000, 8660327640330000000000000000000000000000000000000000000000000000000000000000000000000000000, 8664915340480000000000000000000000000000000000000000000000000000000000000000000000000000000, 8669503349140000000000000000000000000000000000000000000000000000000000000000000000000000000, 8674094917090000000000000000000000000000000000000000000000000000000000000000000000000000000, 8678692305190000000000000000000000000000000000000000000000000000000000000000000000000000000, 8683297085110000000000000000000000000000000000000000000000000000000000000000000000000000000, 8687910334450000000000000000000000000000000000000000000000000000000000000000000000000000000, 8692532765270000000000000000000000000000000000000000000000000000000000000000000000000000000, 8697164810060000000000000000000000000000000000000000000000000000000000000000000000000000000, 8701806680260000000000000000000000000000000000000000000000000000000000000000000000000000000, 8706458406860000000000000000000000000000000000000000000000000000000000000000000000000000000, 8711119869140000000000000000000000000000000000000000000000000000000000000000000000000000000, 8715790815620000000000000000000000000000000000000000000000000000000000000000000000000000000, 8720470879790000000000000000000000000000000000000000000000000000000000000000000000000000000, 8725159592410000000000000000000000000000000000000000000000000000000000000000000000000000000, 8729856391560000000000000000000000000000000000000000000000000000000000000000000000000000000, 8734560631180000000000000000000000000000000000000000000000000000000000000000000000000000000, 8739271588670000000000000000000000000000000000000000000000000000000000000000000000000000000, 8743988471860000000000000000000000000000000000000000000000000000000000000000000000000000000, 8748710425550000000000000000000000000000000000000000000000000000000000000000000000000000000, 8753436537850000000000000000000000000000000000000000000000000000000000000000000000000000000, 8758165846270000000000000000000000000000000000000000000000000000000000000000000000000000000, 8762897343680000000000000000000000000000000000000000000000000000000000000000000000000000000, 8767629984120000000000000000000000000000000000000000000000000000000000000000000000000000000, 8772362688440000000000000000000000000000000000000000000000000000000000000000000000000000000, 8777094349840000000000000000000000000000000000000000000000000000000000000000000000000000000, 8781823839180000000000000000000000000000000000000000000000000000000000000000000000000000000, 8786550010090000000000000000000000000000000000000000000000000000000000000000000000000000000, 8791271703880000000000000000000000000000000000000000000000000000000000000000000000000000000, 8795987754200000000000000000000000000000000000000000000000000000000000000000000000000000000]),
  (791207014028000, [8595242814200000000000000000000000000000000000000000000000000000000000000000000000000000000, 8599520820150000000000000000000000000000000000000000000000000000000000000000000000000000000, 8604858974400000000000000000000000000000000000000000000000000000000000000000000000000000000, 8610150750540000000000000000000000000000000000000000000000000000000000000000000000000000000, 8615270237510000000000000000000000000000000000000000000000000000000000000000000000000000000, 8620254634990000000000000000000000000000000000000000000000000000000000000000000000000000000, 8625150796180000000000000000000000000000000000000000000000000000000000000000000000000000000, 8629993224500000000000000000000000000000000000000000000000000000000000000000000000000000000, 8634804947880000000000000000000000000000000000000000000000000000000000000000000000000000000, 8639601012810000000000000000000000000000000000000000000000000000000000000000000000000000000, 8644391261900000000000000000000000000000000000000000000000000000000000000000000000000000000, 8649182182710000000000000000000000000000000000000000000000000000000000000000000000000000000, 8653978082740000000000000000000000000000000000000000000000000000000000000000000000000000000, 8658781828650000000000000000000000000000000000000000000000000000000000000000000000000000000, 8663595313300000000000000000000000000000000000000000000000000000000000000000000000000000000, 8668419753320000000000000000000000000000000000000000000000000000000000000000000000000000000, 8673255881360000000000000000000000000000000000000000000000000000000000000000000000000000000, 8678104071730000000000000000000000000000000000000000000000000000000000000000000000000000000, 8682964424040000000000000000000000000000000000000000000000000000000000000000000000000000000, 8687836819750000000000000000000000000000000000000000000000000000000000000000000000000000000, 8692720961400000000000000000000000000000000000000000000000000000000000000000000000000000000, 8697616400380000000000000000000000000000000000000000000000000000000000000000000000000000000, 8702522557530000000000000000000000000000000000000000000000000000000000000000000000000000000, 8707438738810000000000000000000000000000000000000000000000000000000000000000000000000000000, 8712364148020000000000000000000000000000000000000000000000000000000000000000000000000000000, 8717297897380000000000000000000000000000000000000000000000000000000000000000000000000000000, 8722239017020000000000000000000000000000000000000000000000000000000000000000000000000000000, 8727186463480000000000000000000000000000000000000000000000000000000000000000000000000000000, 8732139127810000000000000000000000000000000000000000000000000000000000000000000000000000000, 8737095843270000000000000000000000000000000000000000000000000000000000000000000000000000000, 8742055392710000000000000000000000000000000000000000000000000000000000000000000000000000000, 8747016515800000000000000000000000000000000000000000000000000000000000000000000000000000000, 8751977916020000000000000000000000000000000000000000000000000000000000000000000000000000000, 8756938267410000000000000000000000000000000000000000000000000000000000000000000000000000000, 8761896221080000000000000000000000000000000000000000000000000000000000000000000000000000000, 8766850411480000000000000000000000000000000000000000000000000000000000000000000000000000000, 8771799462340000000000000000000000000000000000000000000000000000000000000000000000000000000, 8776741992330000000000000000000000000000000000000000000000000000000000000000000000000000000, 8781676620380000000000000000000000000000000000000000000000000000000000000000000000000000000, 8786601970640000000000000000000000000000000000000000000000000000000000000000000000000000000]),
  (793311022044000, [8581200581790000000000000000000000000000000000000000000000000000000000000000000000000000000, 8585574600180000000000000000000000000000000000000000000000000000000000000000000000000000000, 8591040197360000000000000000000000000000000000000000000000000000000000000000000000000000000, 8596480731750000000000000000000000000000000000000000000000000000000000000000000000000000000, 8601763563920000000000000000000000000000000000000000000000000000000000000000000000000000000, 8606922111160000000000000000000000000000000000000000000000000000000000000000000000000000000, 8612001240870000000000000000000000000000000000000000000000000000000000000000000000000000000, 8617034343210000000000000000000000000000000000000000000000000000000000000000000000000000000, 8622043706260000000000000000000000000000000000000000000000000000000000000000000000000000000, 8627043788410000000000000000000000000000000000000000000000000000000000000000000000000000000, 8632043908950000000000000000000000000000000000000000000000000000000000000000000000000000000, 8637050065630000000000000000000000000000000000000000000000000000000000000000000000000000000, 8642066098640000000000000000000000000000000000000000000000000000000000000000000000000000000, 8647094425240000000000000000000000000000000000000000000000000000000000000000000000000000000, 8652136503640000000000000000000000000000000000000000000000000000000000000000000000000000000, 8657193127700000000000000000000000000000000000000000000000000000000000000000000000000000000, 8662264616320000000000000000000000000000000000000000000000000000000000000000000000000000000, 8667350936570000000000000000000000000000000000000000000000000000000000000000000000000000000, 8672451785230000000000000000000000000000000000000000000000000000000000000000000000000000000, 8677566643890000000000000000000000000000000000000000000000000000000000000000000000000000000, 8682694817190000000000000000000000000000000000000000000000000000000000000000000000000000000, 8687835460270000000000000000000000000000000000000000000000000000000000000000000000000000000, 8692987599490000000000000000000000000000000000000000000000000000000000000000000000000000000, 8698150148700000000000000000000000000000000000000000000000000000000000000000000000000000000, 8703321922730000000000000000000000000000000000000000000000000000000000000000000000000000000, 8708501649220000000000000000000000000000000000000000000000000000000000000000000000000000000, 8713687979260000000000000000000000000000000000000000000000000000000000000000000000000000000, 8718879497310000000000000000000000000000000000000000000000000000000000000000000000000000000, 8724074730660000000000000000000000000000000000000000000000000000000000000000000000000000000, 8729272158420000000000000000000000000000000000000000000000000000000000000000000000000000000, 8734470220250000000000000000000000000000000000000000000000000000000000000000000000000000000, 8739667324690000000000000000000000000000000000000000000000000000000000000000000000000000000, 8744861857260000000000000000000000000000000000000000000000000000000000000000000000000000000, 8750052188050000000000000000000000000000000000000000000000000000000000000000000000000000000, 8755236679050000000000000000000000000000000000000000000000000000000000000000000000000000000, 8760413691020000000000000000000000000000000000000000000000000000000000000000000000000000000, 8765581589910000000000000000000000000000000000000000000000000000000000000000000000000000000, 8770738752850000000000000000000000000000000000000000000000000000000000000000000000000000000, 8775883573670000000000000000000000000000000000000000000000000000000000000000000000000000000, 8781014467970000000000000000000000000000000000000000000000000000000000000000000000000000000]),
  (795415030060000, [8570921534890000000000000000000000000000000000000000000000000000000000000000000000000000000, 8575394922090000000000000000000000000000000000000000000000000000000000000000000000000000000, 8580994236530000000000000000000000000000000000000000000000000000000000000000000000000000000, 8586591532250000000000000000000000000000000000000000000000000000000000000000000000000000000, 8592046964700000000000000000000000000000000000000000000000000000000000000000000000000000000, 8597389834590000000000000000000000000000000000000000000000000000000000000000000000000000000, 8602662819160000000000000000000000000000000000000000000000000000000000000000000000000000000, 8607898067240000000000000000000000000000000000000000000000000000000000000000000000000000000, 8613117031390000000000000000000000000000000000000000000000000000000000000000000000000000000, 8618333497520000000000000000000000000000000000000000000000000000000000000000000000000000000, 8623556180350000000000000000000000000000000000000000000000000000000000000000000000000000000, 8628790506990000000000000000000000000000000000000000000000000000000000000000000000000000000, 8634039768990000000000000000000000000000000000000000000000000000000000000000000000000000000, 8639305852050000000000000000000000000000000000000000000000000000000000000000000000000000000, 8644589696670000000000000000000000000000000000000000000000000000000000000000000000000000000, 8649891590090000000000000000000000000000000000000000000000000000000000000000000000000000000, 8655211353050000000000000000000000000000000000000000000000000000000000000000000000000000000, 8660548460890000000000000000000000000000000000000000000000000000000000000000000000000000000, 8665902123520000000000000000000000000000000000000000000000000000000000000000000000000000000, 8671271339680000000000000000000000000000000000000000000000000000000000000000000000000000000, 8676654934930000000000000000000000000000000000000000000000000000000000000000000000000000000, 8682051589500000000000000000000000000000000000000000000000000000000000000000000000000000000, 8687459859810000000000000000000000000000000000000000000000000000000000000000000000000000000, 8692878195920000000000000000000000000000000000000000000000000000000000000000000000000000000, 8698304956550000000000000000000000000000000000000000000000000000000000000000000000000000000, 8703738422420000000000000000000000000000000000000000000000000000000000000000000000000000000, 8709176808600000000000000000000000000000000000000000000000000000000000000000000000000000000, 8714618276100000000000000000000000000000000000000000000000000000000000000000000000000000000, 8720060942840000000000000000000000000000000000000000000000000000000000000000000000000000000, 8725502894130000000000000000000000000000000000000000000000000000000000000000000000000000000, 8730942192700000000000000000000000000000000000000000000000000000000000000000000000000000000, 8736376888130000000000000000000000000000000000000000000000000000000000000000000000000000000, 8741805025840000000000000000000000000000000000000000000000000000000000000000000000000000000, 8747224655480000000000000000000000000000000000000000000000000000000000000000000000000000000, 8752633838790000000000000000000000000000000000000000000000000000000000000000000000000000000, 8758030656760000000000000000000000000000000000000000000000000000000000000000000000000000000, 8763413216320000000000000000000000000000000000000000000000000000000000000000000000000000000, 8768779656300000000000000000000000000000000000000000000000000000000000000000000000000000000, 8774128152830000000000000000000000000000000000000000000000000000000000000000000000000000000, 8779456924190000000000000000000000000000000000000000000000000000000000000000000000000000000]),
  (797519038076000, [8564685933500000000000000000000000000000000000000000000000000000000000000000000000000000000, 8569263186980000000000000000000000000000000000000000000000000000000000000000000000000000000, 8575003124130000000000000000000000000000000000000000000000000000000000000000000000000000000, 8580765870170000000000000000000000000000000000000000000000000000000000000000000000000000000, 8586403978880000000000000000000000000000000000000000000000000000000000000000000000000000000, 8591942275600000000000000000000000000000000000000000000000000000000000000000000000000000000, 8597420997400000000000000000000000000000000000000000000000000000000000000000000000000000000, 8602870882230000000000000000000000000000000000000000000000000000000000000000000000000000000, 8608312418180000000000000000000000000000000000000000000000000000000000000000000000000000000, 8613758607150000000000000000000000000000000000000000000000000000000000000000000000000000000, 8619217454690000000000000000000000000000000000000000000000000000000000000000000000000000000, 8624693715040000000000000000000000000000000000000000000000000000000000000000000000000000000, 8630190029420000000000000000000000000000000000000000000000000000000000000000000000000000000, 8635707650040000000000000000000000000000000000000000000000000000000000000000000000000000000, 8641246897380000000000000000000000000000000000000000000000000000000000000000000000000000000, 8646807449540000000000000000000000000000000000000000000000000000000000000000000000000000000, 8652388527030000000000000000000000000000000000000000000000000000000000000000000000000000000, 8657989012400000000000000000000000000000000000000000000000000000000000000000000000000000000, 8663607529600000000000000000000000000000000000000000000000000000000000000000000000000000000, 8669242498240000000000000000000000000000000000000000000000000000000000000000000000000000000, 8674892172260000000000000000000000000000000000000000000000000000000000000000000000000000000, 8680554669070000000000000000000000000000000000000000000000000000000000000000000000000000000, 8686227992630000000000000000000000000000000000000000000000000000000000000000000000000000000, 8691910052780000000000000000000000000000000000000000000000000000000000000000000000000000000, 8697598682310000000000000000000000000000000000000000000000000000000000000000000000000000000, 8703291652300000000000000000000000000000000000000000000000000000000000000000000000000000000, 8708986686430000000000000000000000000000000000000000000000000000000000000000000000000000000, 8714681474320000000000000000000000000000000000000000000000000000000000000000000000000000000, 8720373684210000000000000000000000000000000000000000000000000000000000000000000000000000000, 8726060974750000000000000000000000000000000000000000000000000000000000000000000000000000000, 8731741006140000000000000000000000000000000000000000000000000000000000000000000000000000000, 8737411450530000000000000000000000000000000000000000000000000000000000000000000000000000000, 8743070001520000000000000000000000000000000000000000000000000000000000000000000000000000000, 8748714383000000000000000000000000000000000000000000000000000000000000000000000000000000000, 8754342357090000000000000000000000000000000000000000000000000000000000000000000000000000000, 8759951731320000000000000000000000000000000000000000000000000000000000000000000000000000000, 8765540364970000000000000000000000000000000000000000000000000000000000000000000000000000000, 8771106174650000000000000000000000000000000000000000000000000000000000000000000000000000000, 8776647139170000000000000000000000000000000000000000000000000000000000000000000000000000000, 8782161303580000000000000000000000000000000000000000000000000000000000000000000000000000000]),
  (799623046092000, [8562793105840000000000000000000000000000000000000000000000000000000000000000000000000000000, 8567480090760000000000000000000000000000000000000000000000000000000000000000000000000000000, 8573368532140000000000000000000000000000000000000000000000000000000000000000000000000000000, 8579306398720000000000000000000000000000000000000000000000000000000000000000000000000000000, 8585138279610000000000000000000000000000000000000000000000000000000000000000000000000000000, 8590884155010000000000000000000000000000000000000000000000000000000000000000000000000000000, 8596581546260000000000000000000000000000000000000000000000000000000000000000000000000000000, 8602259581900000000000000000000000000000000000000000000000000000000000000000000000000000000, 8607937628700000000000000000000000000000000000000000000000000000000000000000000000000000000, 8613627767120000000000000000000000000000000000000000000000000000000000000000000000000000000, 8619337164350000000000000000000000000000000000000000000000000000000000000000000000000000000, 8625069775690000000000000000000000000000000000000000000000000000000000000000000000000000000, 8630827466970000000000000000000000000000000000000000000000000000000000000000000000000000000, 8636610732130000000000000000000000000000000000000000000000000000000000000000000000000000000, 8642419147240000000000000000000000000000000000000000000000000000000000000000000000000000000, 8648251657960000000000000000000000000000000000000000000000000000000000000000000000000000000, 8654106763140000000000000000000000000000000000000000000000000000000000000000000000000000000, 8659982634270000000000000000000000000000000000000000000000000000000000000000000000000000000, 8665877195290000000000000000000000000000000000000000000000000000000000000000000000000000000, 8671788178010000000000000000000000000000000000000000000000000000000000000000000000000000000, 8677713162670000000000000000000000000000000000000000000000000000000000000000000000000000000, 8683649609200000000000000000000000000000000000000000000000000000000000000000000000000000000, 8689594882680000000000000000000000000000000000000000000000000000000000000000000000000000000, 8695546275300000000000000000000000000000000000000000000000000000000000000000000000000000000, 8701501025690000000000000000000000000000000000000000000000000000000000000000000000000000000, 8707456336660000000000000000000000000000000000000000000000000000000000000000000000000000000, 8713409391470000000000000000000000000000000000000000000000000000000000000000000000000000000, 8719357368960000000000000000000000000000000000000000000000000000000000000000000000000000000, 8725297457520000000000000000000000000000000000000000000000000000000000000000000000000000000, 8731226868040000000000000000000000000000000000000000000000000000000000000000000000000000000, 8737142845720000000000000000000000000000000000000000000000000000000000000000000000000000000, 8743042680820000000000000000000000000000000000000000000000000000000000000000000000000000000, 8748923718300000000000000000000000000000000000000000000000000000000000000000000000000000000, 8754783366430000000000000000000000000000000000000000000000000000000000000000000000000000000, 8760619104270000000000000000000000000000000000000000000000000000000000000000000000000000000, 8766428488170000000000000000000000000000000000000000000000000000000000000000000000000000000, 8772209157270000000000000000000000000000000000000000000000000000000000000000000000000000000, 8777958838100000000000000000000000000000000000000000000000000000000000000000000000000000000, 8783675348210000000000000000000000000000000000000000000000000000000000000000000000000000000, 8789356599080000000000000000000000000000000000000000000000000000000000000000000000000000000]),
  (801727054108000, [8565563289800000000000000000000000000000000000000000000000000000000000000000000000000000000, 8570367354630000000000000000000000000000000000000000000000000000000000000000000000000000000, 8576413492240000000000000000000000000000000000000000000000000000000000000000000000000000000, 8582537400470000000000000000000000000000000000000000000000000000000000000000000000000000000, 8588575336350000000000000000000000000000000000000000000000000000000000000000000000000000000, 8594542064090000000000000000000000000000000000000000000000000000000000000000000000000000000, 8600472105630000000000000000000000000000000000000000000000000000000000000000000000000000000, 8606392764500000000000000000000000000000000000000000000000000000000000000000000000000000000, 8612322107010000000000000000000000000000000000000000000000000000000000000000000000000000000, 8618271129750000000000000000000000000000000000000000000000000000000000000000000000000000000, 8624246006050000000000000000000000000000000000000000000000000000000000000000000000000000000, 8630249739490000000000000000000000000000000000000000000000000000000000000000000000000000000, 8636283268760000000000000000000000000000000000000000000000000000000000000000000000000000000, 8642346178860000000000000000000000000000000000000000000000000000000000000000000000000000000, 8648437152670000000000000000000000000000000000000000000000000000000000000000000000000000000, 8654554257690000000000000000000000000000000000000000000000000000000000000000000000000000000, 8660695130060000000000000000000000000000000000000000000000000000000000000000000000000000000, 8666857095240000000000000000000000000000000000000000000000000000000000000000000000000000000, 8673037249870000000000000000000000000000000000000000000000000000000000000000000000000000000, 8679232519800000000000000000000000000000000000000000000000000000000000000000000000000000000, 8685439703540000000000000000000000000000000000000000000000000000000000000000000000000000000, 8691655506640000000000000000000000000000000000000000000000000000000000000000000000000000000, 8697876570260000000000000000000000000000000000000000000000000000000000000000000000000000000, 8704099495980000000000000000000000000000000000000000000000000000000000000000000000000000000, 8710320867740000000000000000000000000000000000000000000000000000000000000000000000000000000, 8716537271790000000000000000000000000000000000000000000000000000000000000000000000000000000, 8722745314690000000000000000000000000000000000000000000000000000000000000000000000000000000, 8728941639740000000000000000000000000000000000000000000000000000000000000000000000000000000, 8735122941820000000000000000000000000000000000000000000000000000000000000000000000000000000, 8741285980670000000000000000000000000000000000000000000000000000000000000000000000000000000, 8747427592740000000000000000000000000000000000000000000000000000000000000000000000000000000, 8753544701490000000000000000000000000000000000000000000000000000000000000000000000000000000, 8759634326320000000000000000000000000000000000000000000000000000000000000000000000000000000, 8765693590140000000000000000000000000000000000000000000000000000000000000000000000000000000, 8771719725590000000000000000000000000000000000000000000000000000000000000000000000000000000, 8777710080110000000000000000000000000000000000000000000000000000000000000000000000000000000, 8783662119780000000000000000000000000000000000000000000000000000000000000000000000000000000, 8789573432190000000000000000000000000000000000000000000000000000000000000000000000000000000, 8795441728280000000000000000000000000000000000000000000000000000000000000000000000000000000, 8801264843310000000000000000000000000000000000000000000000000000000000000000000000000000000]),
  (803831062124000, [8573340023620000000000000000000000000000000000000000000000000000000000000000000000000000000, 8578269885950000000000000000000000000000000000000000000000000000000000000000000000000000000, 8584484398760000000000000000000000000000000000000000000000000000000000000000000000000000000, 8590806668770000000000000000000000000000000000000000000000000000000000000000000000000000000, 8597064196060000000000000000000000000000000000000000000000000000000000000000000000000000000, 8603266151420000000000000000000000000000000000000000000000000000000000000000000000000000000, 8609443772670000000000000000000000000000000000000000000000000000000000000000000000000000000, 8615622312020000000000000000000000000000000000000000000000000000000000000000000000000000000, 8621818336120000000000000000000000000000000000000000000000000000000000000000000000000000000, 8628041569330000000000000000000000000000000000000000000000000000000000000000000000000000000, 8634297006480000000000000000000000000000000000000000000000000000000000000000000000000000000, 8640586516200000000000000000000000000000000000000000000000000000000000000000000000000000000, 8646909928310000000000000000000000000000000000000000000000000000000000000000000000000000000, 8653265739780000000000000000000000000000000000000000000000000000000000000000000000000000000, 8659651565680000000000000000000000000000000000000000000000000000000000000000000000000000000, 8666064427260000000000000000000000000000000000000000000000000000000000000000000000000000000, 8672500938540000000000000000000000000000000000000000000000000000000000000000000000000000000, 8678957430260000000000000000000000000000000000000000000000000000000000000000000000000000000, 8685430035410000000000000000000000000000000000000000000000000000000000000000000000000000000, 8691914751370000000000000000000000000000000000000000000000000000000000000000000000000000000, 8698407487260000000000000000000000000000000000000000000000000000000000000000000000000000000, 8704904102150000000000000000000000000000000000000000000000000000000000000000000000000000000, 8711400437030000000000000000000000000000000000000000000000000000000000000000000000000000000, 8717892342450000000000000000000000000000000000000000000000000000000000000000000000000000000, 8724375702800000000000000000000000000000000000000000000000000000000000000000000000000000000, 8730846457810000000000000000000000000000000000000000000000000000000000000000000000000000000, 8737300621680000000000000000000000000000000000000000000000000000000000000000000000000000000, 8743734299820000000000000000000000000000000000000000000000000000000000000000000000000000000, 8750143703550000000000000000000000000000000000000000000000000000000000000000000000000000000, 8756525162720000000000000000000000000000000000000000000000000000000000000000000000000000000, 8762875136350000000000000000000000000000000000000000000000000000000000000000000000000000000, 8769190221510000000000000000000000000000000000000000000000000000000000000000000000000000000, 8775467160330000000000000000000000000000000000000000000000000000000000000000000000000000000, 8781702845520000000000000000000000000000000000000000000000000000000000000000000000000000000, 8787894324330000000000000000000000000000000000000000000000000000000000000000000000000000000, 8794038801110000000000000000000000000000000000000000000000000000000000000000000000000000000, 8800133638710000000000000000000000000000000000000000000000000000000000000000000000000000000, 8806176358750000000000000000000000000000000000000000000000000000000000000000000000000000000, 8812164640870000000000000000000000000000000000000000000000000000000000000000000000000000000, 8818096321150000000000000000000000000000000000000000000000000000000000000000000000000000000]),
  (805935070140000, [8586493087100000000000000000000000000000000000000000000000000000000000000000000000000000000, 8591558245620000000000000000000000000000000000000000000000000000000000000000000000000000000, 8597953197140000000000000000000000000000000000000000000000000000000000000000000000000000000, 8604487502120000000000000000000000000000000000000000000000000000000000000000000000000000000, 8610979318210000000000000000000000000000000000000000000000000000000000000000000000000000000, 8617431811120000000000000000000000000000000000000000000000000000000000000000000000000000000, 8623872641910000000000000000000000000000000000000000000000000000000000000000000000000000000, 8630324772090000000000000000000000000000000000000000000000000000000000000000000000000000000, 8636803046640000000000000000000000000000000000000000000000000000000000000000000000000000000, 8643315699280000000000000000000000000000000000000000000000000000000000000000000000000000000, 8649866328160000000000000000000000000000000000000000000000000000000000000000000000000000000, 8656455449390000000000000000000000000000000000000000000000000000000000000000000000000000000, 8663081569340000000000000000000000000000000000000000000000000000000000000000000000000000000, 8669741888120000000000000000000000000000000000000000000000000000000000000000000000000000000, 8676432753100000000000000000000000000000000000000000000000000000000000000000000000000000000, 8683149951350000000000000000000000000000000000000000000000000000000000000000000000000000000, 8689888901400000000000000000000000000000000000000000000000000000000000000000000000000000000, 8696644782680000000000000000000000000000000000000000000000000000000000000000000000000000000, 8703412626610000000000000000000000000000000000000000000000000000000000000000000000000000000, 8710187383780000000000000000000000000000000000000000000000000000000000000000000000000000000, 8716963976100000000000000000000000000000000000000000000000000000000000000000000000000000000, 8723737338790000000000000000000000000000000000000000000000000000000000000000000000000000000, 8730502455480000000000000000000000000000000000000000000000000000000000000000000000000000000, 8737254388080000000000000000000000000000000000000000000000000000000000000000000000000000000, 8743988302320000000000000000000000000000000000000000000000000000000000000000000000000000000, 8750699489710000000000000000000000000000000000000000000000000000000000000000000000000000000, 8757383386310000000000000000000000000000000000000000000000000000000000000000000000000000000, 8764035588400000000000000000000000000000000000000000000000000000000000000000000000000000000, 8770651865480000000000000000000000000000000000000000000000000000000000000000000000000000000, 8777228170640000000000000000000000000000000000000000000000000000000000000000000000000000000, 8783760648660000000000000000000000000000000000000000000000000000000000000000000000000000000, 8790245641760000000000000000000000000000000000000000000000000000000000000000000000000000000, 8796679693560000000000000000000000000000000000000000000000000000000000000000000000000000000, 8803059551090000000000000000000000000000000000000000000000000000000000000000000000000000000, 8809382165290000000000000000000000000000000000000000000000000000000000000000000000000000000, 8815644690100000000000000000000000000000000000000000000000000000000000000000000000000000000, 8821844480290000000000000000000000000000000000000000000000000000000000000000000000000000000, 8827979088240000000000000000000000000000000000000000000000000000000000000000000000000000000, 8834046259860000000000000000000000000000000000000000000000000000000000000000000000000000000, 8840043929740000000000000000000000000000000000000000000000000000000000000000000000000000000]),
  (808039078156000, [8605421440210000000000000000000000000000000000000000000000000000000000000000000000000000000, 8610631160680000000000000000000000000000000000000000000000000000000000000000000000000000000, 8617219612840000000000000000000000000000000000000000000000000000000000000000000000000000000, 8623980703820000000000000000000000000000000000000000000000000000000000000000000000000000000, 8630722367410000000000000000000000000000000000000000000000000000000000000000000000000000000, 8637441275900000000000000000000000000000000000000000000000000000000000000000000000000000000, 8644161193850000000000000000000000000000000000000000000000000000000000000000000000000000000, 8650902528210000000000000000000000000000000000000000000000000000000000000000000000000000000, 8657678149030000000000000000000000000000000000000000000000000000000000000000000000000000000, 8664494544240000000000000000000000000000000000000000000000000000000000000000000000000000000, 8671353658040000000000000000000000000000000000000000000000000000000000000000000000000000000, 8678254398680000000000000000000000000000000000000000000000000000000000000000000000000000000, 8685193700300000000000000000000000000000000000000000000000000000000000000000000000000000000, 8692167229080000000000000000000000000000000000000000000000000000000000000000000000000000000, 8699169843470000000000000000000000000000000000000000000000000000000000000000000000000000000, 8706195894860000000000000000000000000000000000000000000000000000000000000000000000000000000, 8713239427410000000000000000000000000000000000000000000000000000000000000000000000000000000, 8720294315170000000000000000000000000000000000000000000000000000000000000000000000000000000, 8727354359920000000000000000000000000000000000000000000000000000000000000000000000000000000, 8734413364080000000000000000000000000000000000000000000000000000000000000000000000000000000, 8741465187250000000000000000000000000000000000000000000000000000000000000000000000000000000, 8748503791420000000000000000000000000000000000000000000000000000000000000000000000000000000, 8755523277920000000000000000000000000000000000000000000000000000000000000000000000000000000, 8762517917810000000000000000000000000000000000000000000000000000000000000000000000000000000, 8769482176960000000000000000000000000000000000000000000000000000000000000000000000000000000, 8776410736400000000000000000000000000000000000000000000000000000000000000000000000000000000, 8783298508590000000000000000000000000000000000000000000000000000000000000000000000000000000, 8790140649940000000000000000000000000000000000000000000000000000000000000000000000000000000, 8796932570030000000000000000000000000000000000000000000000000000000000000000000000000000000, 8803669937790000000000000000000000000000000000000000000000000000000000000000000000000000000, 8810348684990000000000000000000000000000000000000000000000000000000000000000000000000000000, 8816965007390000000000000000000000000000000000000000000000000000000000000000000000000000000, 8823515363700000000000000000000000000000000000000000000000000000000000000000000000000000000, 8829996472890000000000000000000000000000000000000000000000000000000000000000000000000000000, 8836405309790000000000000000000000000000000000000000000000000000000000000000000000000000000, 8842739099520000000000000000000000000000000000000000000000000000000000000000000000000000000, 8848995310760000000000000000000000000000000000000000000000000000000000000000000000000000000, 8855171648180000000000000000000000000000000000000000000000000000000000000000000000000000000, 8861266044210000000000000000000000000000000000000000000000000000000000000000000000000000000, 8867276650190000000000000000000000000000000000000000000000000000000000000000000000000000000]),
  (810143086172000, [8630555362960000000000000000000000000000000000000000000000000000000000000000000000000000000, 8635917814900000000000000000000000000000000000000000000000000000000000000000000000000000000, 8642713263920000000000000000000000000000000000000000000000000000000000000000000000000000000, 8649716454880000000000000000000000000000000000000000000000000000000000000000000000000000000, 8656723836100000000000000000000000000000000000000000000000000000000000000000000000000000000, 8663724981980000000000000000000000000000000000000000000000000000000000000000000000000000000, 8670739387510000000000000000000000000000000000000000000000000000000000000000000000000000000, 8677784598690000000000000000000000000000000000000000000000000000000000000000000000000000000, 8684871213470000000000000000000000000000000000000000000000000000000000000000000000000000000, 8692003673330000000000000000000000000000000000000000000000000000000000000000000000000000000, 8699181967300000000000000000000000000000000000000000000000000000000000000000000000000000000, 8706403101170000000000000000000000000000000000000000000000000000000000000000000000000000000, 8713662156440000000000000000000000000000000000000000000000000000000000000000000000000000000, 8720953005680000000000000000000000000000000000000000000000000000000000000000000000000000000, 8728268785070000000000000000000000000000000000000000000000000000000000000000000000000000000, 8735602207080000000000000000000000000000000000000000000000000000000000000000000000000000000, 8742945771210000000000000000000000000000000000000000000000000000000000000000000000000000000, 8750291910080000000000000000000000000000000000000000000000000000000000000000000000000000000, 8757633094380000000000000000000000000000000000000000000000000000000000000000000000000000000, 8764961910740000000000000000000000000000000000000000000000000000000000000000000000000000000, 8772271121260000000000000000000000000000000000000000000000000000000000000000000000000000000, 8779553709820000000000000000000000000000000000000000000000000000000000000000000000000000000, 8786802918360000000000000000000000000000000000000000000000000000000000000000000000000000000, 8794012275150000000000000000000000000000000000000000000000000000000000000000000000000000000, 8801175616330000000000000000000000000000000000000000000000000000000000000000000000000000000, 8808287101790000000000000000000000000000000000000000000000000000000000000000000000000000000, 8815341226060000000000000000000000000000000000000000000000000000000000000000000000000000000, 8822332824900000000000000000000000000000000000000000000000000000000000000000000000000000000, 8829257078140000000000000000000000000000000000000000000000000000000000000000000000000000000, 8836109509210000000000000000000000000000000000000000000000000000000000000000000000000000000, 8842885981900000000000000000000000000000000000000000000000000000000000000000000000000000000, 8849582694830000000000000000000000000000000000000000000000000000000000000000000000000000000, 8856196173830000000000000000000000000000000000000000000000000000000000000000000000000000000, 8862723262790000000000000000000000000000000000000000000000000000000000000000000000000000000, 8869161113200000000000000000000000000000000000000000000000000000000000000000000000000000000, 8875507172670000000000000000000000000000000000000000000000000000000000000000000000000000000, 8881759172730000000000000000000000000000000000000000000000000000000000000000000000000000000, 8887915116060000000000000000000000000000000000000000000000000000000000000000000000000000000, 8893973263440000000000000000000000000000000000000000000000000000000000000000000000000000000, 8899932120510000000000000000000000000000000000000000000000000000000000000000000000000000000]),
  (812247094188000, [8662357634230000000000000000000000000000000000000000000000000000000000000000000000000000000, 8667879781490000000000000000000000000000000000000000000000000000000000000000000000000000000, 8674895510190000000000000000000000000000000000000000000000000000000000000000000000000000000, 8682155905770000000000000000000000000000000000000000000000000000000000000000000000000000000, 8689444333110000000000000000000000000000000000000000000000000000000000000000000000000000000, 8696742527510000000000000000000000000000000000000000000000000000000000000000000000000000000, 8704065260930000000000000000000000000000000000000000000000000000000000000000000000000000000, 8711426848040000000000000000000000000000000000000000000000000000000000000000000000000000000, 8718835259270000000000000000000000000000000000000000000000000000000000000000000000000000000, 8726292535580000000000000000000000000000000000000000000000000000000000000000000000000000000, 8733796363610000000000000000000000000000000000000000000000000000000000000000000000000000000, 8741341516270000000000000000000000000000000000000000000000000000000000000000000000000000000, 8748920918720000000000000000000000000000000000000000000000000000000000000000000000000000000, 8756526380650000000000000000000000000000000000000000000000000000000000000000000000000000000, 8764149086630000000000000000000000000000000000000000000000000000000000000000000000000000000, 8771779924440000000000000000000000000000000000000000000000000000000000000000000000000000000, 8779409708080000000000000000000000000000000000000000000000000000000000000000000000000000000, 8787029332690000000000000000000000000000000000000000000000000000000000000000000000000000000, 8794629885080000000000000000000000000000000000000000000000000000000000000000000000000000000, 8802202724020000000000000000000000000000000000000000000000000000000000000000000000000000000, 8809739539490000000000000000000000000000000000000000000000000000000000000000000000000000000, 8817232396290000000000000000000000000000000000000000000000000000000000000000000000000000000, 8824673765620000000000000000000000000000000000000000000000000000000000000000000000000000000, 8832056547070000000000000000000000000000000000000000000000000000000000000000000000000000000, 8839374082610000000000000000000000000000000000000000000000000000000000000000000000000000000, 8846620164130000000000000000000000000000000000000000000000000000000000000000000000000000000, 8853789035290000000000000000000000000000000000000000000000000000000000000000000000000000000, 8860875388830000000000000000000000000000000000000000000000000000000000000000000000000000000, 8867874359950000000000000000000000000000000000000000000000000000000000000000000000000000000, 8874781516620000000000000000000000000000000000000000000000000000000000000000000000000000000, 8881592847170000000000000000000000000000000000000000000000000000000000000000000000000000000, 8888304746020000000000000000000000000000000000000000000000000000000000000000000000000000000, 8894913997730000000000000000000000000000000000000000000000000000000000000000000000000000000, 8901417759950000000000000000000000000000000000000000000000000000000000000000000000000000000, 8907813545650000000000000000000000000000000000000000000000000000000000000000000000000000000, 8914099204730000000000000000000000000000000000000000000000000000000000000000000000000000000, 8920272905570000000000000000000000000000000000000000000000000000000000000000000000000000000, 8926333116440000000000000000000000000000000000000000000000000000000000000000000000000000000, 8932278587200000000000000000000000000000000000000000000000000000000000000000000000000000000, 8938108331240000000000000000000000000000000000000000000000000000000000000000000000000000000]),
  (814351102204000, [8701324508330000000000000000000000000000000000000000000000000000000000000000000000000000000, 8707012587740000000000000000000000000000000000000000000000000000000000000000000000000000000, 8714260887720000000000000000000000000000000000000000000000000000000000000000000000000000000, 8721792297650000000000000000000000000000000000000000000000000000000000000000000000000000000, 8729375324340000000000000000000000000000000000000000000000000000000000000000000000000000000, 8736982986540000000000000000000000000000000000000000000000000000000000000000000000000000000, 8744624775790000000000000000000000000000000000000000000000000000000000000000000000000000000, 8752311320740000000000000000000000000000000000000000000000000000000000000000000000000000000, 8760047538420000000000000000000000000000000000000000000000000000000000000000000000000000000, 8767832658380000000000000000000000000000000000000000000000000000000000000000000000000000000, 8775661676220000000000000000000000000000000000000000000000000000000000000000000000000000000, 8783526777650000000000000000000000000000000000000000000000000000000000000000000000000000000, 8791418422180000000000000000000000000000000000000000000000000000000000000000000000000000000, 8799326100070000000000000000000000000000000000000000000000000000000000000000000000000000000, 8807238845100000000000000000000000000000000000000000000000000000000000000000000000000000000, 8815145579880000000000000000000000000000000000000000000000000000000000000000000000000000000, 8823035350300000000000000000000000000000000000000000000000000000000000000000000000000000000, 8830897486580000000000000000000000000000000000000000000000000000000000000000000000000000000, 8838721715110000000000000000000000000000000000000000000000000000000000000000000000000000000, 8846498236170000000000000000000000000000000000000000000000000000000000000000000000000000000, 8854217777270000000000000000000000000000000000000000000000000000000000000000000000000000000, 8861871628280000000000000000000000000000000000000000000000000000000000000000000000000000000, 8869451662570000000000000000000000000000000000000000000000000000000000000000000000000000000, 8876950347210000000000000000000000000000000000000000000000000000000000000000000000000000000, 8884360744320000000000000000000000000000000000000000000000000000000000000000000000000000000, 8891676505450000000000000000000000000000000000000000000000000000000000000000000000000000000, 8898891860250000000000000000000000000000000000000000000000000000000000000000000000000000000, 8906001600710000000000000000000000000000000000000000000000000000000000000000000000000000000, 8913001061990000000000000000000000000000000000000000000000000000000000000000000000000000000, 8919886100520000000000000000000000000000000000000000000000000000000000000000000000000000000, 8926653070280000000000000000000000000000000000000000000000000000000000000000000000000000000, 8933298797780000000000000000000000000000000000000000000000000000000000000000000000000000000, 8939820556250000000000000000000000000000000000000000000000000000000000000000000000000000000, 8946216039490000000000000000000000000000000000000000000000000000000000000000000000000000000, 8952483335730000000000000000000000000000000000000000000000000000000000000000000000000000000, 8958620901780000000000000000000000000000000000000000000000000000000000000000000000000000000, 8964627537730000000000000000000000000000000000000000000000000000000000000000000000000000000, 8970502362310000000000000000000000000000000000000000000000000000000000000000000000000000000, 8976244789100000000000000000000000000000000000000000000000000000000000000000000000000000000, 8981854503760000000000000000000000000000000000000000000000000000000000000000000000000000000]),
  (816455110220000, [8747987217340000000000000000000000000000000000000000000000000000000000000000000000000000000, 8753846871810000000000000000000000000000000000000000000000000000000000000000000000000000000, 8761337934710000000000000000000000000000000000000000000000000000000000000000000000000000000, 8769151366210000000000000000000000000000000000000000000000000000000000000000000000000000000, 8777039041220000000000000000000000000000000000000000000000000000000000000000000000000000000, 8784964259550000000000000000000000000000000000000000000000000000000000000000000000000000000, 8792930553960000000000000000000000000000000000000000000000000000000000000000000000000000000, 8800944313440000000000000000000000000000000000000000000000000000000000000000000000000000000, 8809006900610000000000000000000000000000000000000000000000000000000000000000000000000000000, 8817114272150000000000000000000000000000000000000000000000000000000000000000000000000000000, 8825258318780000000000000000000000000000000000000000000000000000000000000000000000000000000, 8833428285130000000000000000000000000000000000000000000000000000000000000000000000000000000, 8841611880910000000000000000000000000000000000000000000000000000000000000000000000000000000, 8849796068250000000000000000000000000000000000000000000000000000000000000000000000000000000, 8857967598090000000000000000000000000000000000000000000000000000000000000000000000000000000, 8866113370550000000000000000000000000000000000000000000000000000000000000000000000000000000, 8874220676020000000000000000000000000000000000000000000000000000000000000000000000000000000, 8882277355810000000000000000000000000000000000000000000000000000000000000000000000000000000, 8890271907720000000000000000000000000000000000000000000000000000000000000000000000000000000, 8898193553020000000000000000000000000000000000000000000000000000000000000000000000000000000, 8906032275700000000000000000000000000000000000000000000000000000000000000000000000000000000, 8913778841260000000000000000000000000000000000000000000000000000000000000000000000000000000, 8921424800010000000000000000000000000000000000000000000000000000000000000000000000000000000, 8928962478730000000000000000000000000000000000000000000000000000000000000000000000000000000, 8936384963420000000000000000000000000000000000000000000000000000000000000000000000000000000, 8943686075240000000000000000000000000000000000000000000000000000000000000000000000000000000, 8950860341510000000000000000000000000000000000000000000000000000000000000000000000000000000, 8957902963180000000000000000000000000000000000000000000000000000000000000000000000000000000, 8964809779790000000000000000000000000000000000000000000000000000000000000000000000000000000, 8971577233040000000000000000000000000000000000000000000000000000000000000000000000000000000, 8978202329620000000000000000000000000000000000000000000000000000000000000000000000000000000, 8984682603970000000000000000000000000000000000000000000000000000000000000000000000000000000, 8991016081480000000000000000000000000000000000000000000000000000000000000000000000000000000, 8997201242390000000000000000000000000000000000000000000000000000000000000000000000000000000, 9003236986910000000000000000000000000000000000000000000000000000000000000000000000000000000, 9009122601550000000000000000000000000000000000000000000000000000000000000000000000000000000, 9014857727010000000000000000000000000000000000000000000000000000000000000000000000000000000, 9020442327520000000000000000000000000000000000000000000000000000000000000000000000000000000, 9025876661960000000000000000000000000000000000000000000000000000000000000000000000000000000, 9031161256520000000000000000000000000000000000000000000000000000000000000000000000000000000]),
  (818559118236000, [8802913710920000000000000000000000000000000000000000000000000000000000000000000000000000000, 8808948911860000000000000000000000000000000000000000000000000000000000000000000000000000000, 8816689127240000000000000000000000000000000000000000000000000000000000000000000000000000000, 8824790693310000000000000000000000000000000000000000000000000000000000000000000000000000000, 8832987174790000000000000000000000000000000000000000000000000000000000000000000000000000000, 8841231035100000000000000000000000000000000000000000000000000000000000000000000000000000000, 8849519040510000000000000000000000000000000000000000000000000000000000000000000000000000000, 8857852685010000000000000000000000000000000000000000000000000000000000000000000000000000000, 8866229210350000000000000000000000000000000000000000000000000000000000000000000000000000000, 8874640810790000000000000000000000000000000000000000000000000000000000000000000000000000000, 8883075866840000000000000000000000000000000000000000000000000000000000000000000000000000000, 8891520370530000000000000000000000000000000000000000000000000000000000000000000000000000000, 8899959070070000000000000000000000000000000000000000000000000000000000000000000000000000000, 8908376288020000000000000000000000000000000000000000000000000000000000000000000000000000000, 8916756477280000000000000000000000000000000000000000000000000000000000000000000000000000000, 8925084588790000000000000000000000000000000000000000000000000000000000000000000000000000000, 8933346309260000000000000000000000000000000000000000000000000000000000000000000000000000000, 8941528210090000000000000000000000000000000000000000000000000000000000000000000000000000000, 8949617835040000000000000000000000000000000000000000000000000000000000000000000000000000000, 8957603745060000000000000000000000000000000000000000000000000000000000000000000000000000000, 8965475532700000000000000000000000000000000000000000000000000000000000000000000000000000000, 8973223814770000000000000000000000000000000000000000000000000000000000000000000000000000000, 8980840209150000000000000000000000000000000000000000000000000000000000000000000000000000000, 8988317300400000000000000000000000000000000000000000000000000000000000000000000000000000000, 8995648597480000000000000000000000000000000000000000000000000000000000000000000000000000000, 9002828486060000000000000000000000000000000000000000000000000000000000000000000000000000000, 9009852177540000000000000000000000000000000000000000000000000000000000000000000000000000000, 9016715656250000000000000000000000000000000000000000000000000000000000000000000000000000000, 9023415626130000000000000000000000000000000000000000000000000000000000000000000000000000000, 9029949457670000000000000000000000000000000000000000000000000000000000000000000000000000000, 9036315136070000000000000000000000000000000000000000000000000000000000000000000000000000000, 9042511210890000000000000000000000000000000000000000000000000000000000000000000000000000000, 9048536747750000000000000000000000000000000000000000000000000000000000000000000000000000000, 9054391282330000000000000000000000000000000000000000000000000000000000000000000000000000000, 9060074776740000000000000000000000000000000000000000000000000000000000000000000000000000000, 9065587578500000000000000000000000000000000000000000000000000000000000000000000000000000000, 9070930382050000000000000000000000000000000000000000000000000000000000000000000000000000000, 9076104192830000000000000000000000000000000000000000000000000000000000000000000000000000000, 9081110293920000000000000000000000000000000000000000000000000000000000000000000000000000000, 9085950215060000000000000000000000000000000000000000000000000000000000000000000000000000000]),
  (820663126253000, [8866709620280000000000000000000000000000000000000000000000000000000000000000000000000000000, 8872920109130000000000000000000000000000000000000000000000000000000000000000000000000000000, 8880909520170000000000000000000000000000000000000000000000000000000000000000000000000000000, 8889297547380000000000000000000000000000000000000000000000000000000000000000000000000000000, 8897797841430000000000000000000000000000000000000000000000000000000000000000000000000000000, 8906350798280000000000000000000000000000000000000000000000000000000000000000000000000000000, 8914945485460000000000000000000000000000000000000000000000000000000000000000000000000000000, 8923577762050000000000000000000000000000000000000000000000000000000000000000000000000000000, 8932240149610000000000000000000000000000000000000000000000000000000000000000000000000000000, 8940920609310000000000000000000000000000000000000000000000000000000000000000000000000000000, 8949603672020000000000000000000000000000000000000000000000000000000000000000000000000000000, 8958271871940000000000000000000000000000000000000000000000000000000000000000000000000000000, 8966906922520000000000000000000000000000000000000000000000000000000000000000000000000000000, 8975490557650000000000000000000000000000000000000000000000000000000000000000000000000000000, 8984005094910000000000000000000000000000000000000000000000000000000000000000000000000000000, 8992433795260000000000000000000000000000000000000000000000000000000000000000000000000000000, 9000761081040000000000000000000000000000000000000000000000000000000000000000000000000000000, 9008972656480000000000000000000000000000000000000000000000000000000000000000000000000000000, 9017055561740000000000000000000000000000000000000000000000000000000000000000000000000000000, 9024998181100000000000000000000000000000000000000000000000000000000000000000000000000000000, 9032790219820000000000000000000000000000000000000000000000000000000000000000000000000000000, 9040422659560000000000000000000000000000000000000000000000000000000000000000000000000000000, 9047887699600000000000000000000000000000000000000000000000000000000000000000000000000000000, 9055178688780000000000000000000000000000000000000000000000000000000000000000000000000000000, 9062290052230000000000000000000000000000000000000000000000000000000000000000000000000000000, 9069217215400000000000000000000000000000000000000000000000000000000000000000000000000000000, 9075956527600000000000000000000000000000000000000000000000000000000000000000000000000000000, 9082505186640000000000000000000000000000000000000000000000000000000000000000000000000000000, 9088861165460000000000000000000000000000000000000000000000000000000000000000000000000000000, 9095023141750000000000000000000000000000000000000000000000000000000000000000000000000000000, 9100990430980000000000000000000000000000000000000000000000000000000000000000000000000000000, 9106762923150000000000000000000000000000000000000000000000000000000000000000000000000000000, 9112341023500000000000000000000000000000000000000000000000000000000000000000000000000000000, 9117725597300000000000000000000000000000000000000000000000000000000000000000000000000000000, 9122917918490000000000000000000000000000000000000000000000000000000000000000000000000000000, 9127919622390000000000000000000000000000000000000000000000000000000000000000000000000000000, 9132732662040000000000000000000000000000000000000000000000000000000000000000000000000000000, 9137359268230000000000000000000000000000000000000000000000000000000000000000000000000000000, 9141801912980000000000000000000000000000000000000000000000000000000000000000000000000000000, 9146063276170000000000000000000000000000000000000000000000000000000000000000000000000000000]),
  (822767134269000, [8940017591580000000000000000000000000000000000000000000000000000000000000000000000000000000, 8946394863600000000000000000000000000000000000000000000000000000000000000000000000000000000, 8954623528970000000000000000000000000000000000000000000000000000000000000000000000000000000, 8963284589520000000000000000000000000000000000000000000000000000000000000000000000000000000, 8972070136230000000000000000000000000000000000000000000000000000000000000000000000000000000, 8980907148490000000000000000000000000000000000000000000000000000000000000000000000000000000, 8989775964660000000000000000000000000000000000000000000000000000000000000000000000000000000, 8998666032600000000000000000000000000000000000000000000000000000000000000000000000000000000, 9007564587830000000000000000000000000000000000000000000000000000000000000000000000000000000, 9016454986090000000000000000000000000000000000000000000000000000000000000000000000000000000, 9025317721950000000000000000000000000000000000000000000000000000000000000000000000000000000, 9034131861320000000000000000000000000000000000000000000000000000000000000000000000000000000, 9042876233460000000000000000000000000000000000000000000000000000000000000000000000000000000, 9051530275330000000000000000000000000000000000000000000000000000000000000000000000000000000, 9060074578860000000000000000000000000000000000000000000000000000000000000000000000000000000, 9068491218820000000000000000000000000000000000000000000000000000000000000000000000000000000, 9076763927400000000000000000000000000000000000000000000000000000000000000000000000000000000, 9084878164900000000000000000000000000000000000000000000000000000000000000000000000000000000, 9092821120800000000000000000000000000000000000000000000000000000000000000000000000000000000, 9100581668850000000000000000000000000000000000000000000000000000000000000000000000000000000, 9108150292700000000000000000000000000000000000000000000000000000000000000000000000000000000, 9115518993100000000000000000000000000000000000000000000000000000000000000000000000000000000, 9122681184770000000000000000000000000000000000000000000000000000000000000000000000000000000, 9129631588320000000000000000000000000000000000000000000000000000000000000000000000000000000, 9136366121200000000000000000000000000000000000000000000000000000000000000000000000000000000, 9142881790370000000000000000000000000000000000000000000000000000000000000000000000000000000, 9149176588550000000000000000000000000000000000000000000000000000000000000000000000000000000, 9155249395330000000000000000000000000000000000000000000000000000000000000000000000000000000, 9161099883870000000000000000000000000000000000000000000000000000000000000000000000000000000, 9166728433670000000000000000000000000000000000000000000000000000000000000000000000000000000, 9172136049570000000000000000000000000000000000000000000000000000000000000000000000000000000, 9177324287000000000000000000000000000000000000000000000000000000000000000000000000000000000, 9182295183410000000000000000000000000000000000000000000000000000000000000000000000000000000, 9187051195520000000000000000000000000000000000000000000000000000000000000000000000000000000, 9191595142250000000000000000000000000000000000000000000000000000000000000000000000000000000, 9195930152960000000000000000000000000000000000000000000000000000000000000000000000000000000, 9200059620640000000000000000000000000000000000000000000000000000000000000000000000000000000, 9203987159750000000000000000000000000000000000000000000000000000000000000000000000000000000, 9207716568280000000000000000000000000000000000000000000000000000000000000000000000000000000, 9211251793820000000000000000000000000000000000000000000000000000000000000000000000000000000]),
  (824871142285000, [9023514342320000000000000000000000000000000000000000000000000000000000000000000000000000000, 9030036121960000000000000000000000000000000000000000000000000000000000000000000000000000000, 9038479083160000000000000000000000000000000000000000000000000000000000000000000000000000000, 9047382611780000000000000000000000000000000000000000000000000000000000000000000000000000000, 9056415377400000000000000000000000000000000000000000000000000000000000000000000000000000000, 9065489479200000000000000000000000000000000000000000000000000000000000000000000000000000000, 9074575460820000000000000000000000000000000000000000000000000000000000000000000000000000000, 9083655639650000000000000000000000000000000000000000000000000000000000000000000000000000000, 9092711543940000000000000000000000000000000000000000000000000000000000000000000000000000000, 9101721769180000000000000000000000000000000000000000000000000000000000000000000000000000000, 9110662859070000000000000000000000000000000000000000000000000000000000000000000000000000000, 9119510707950000000000000000000000000000000000000000000000000000000000000000000000000000000, 9128241736230000000000000000000000000000000000000000000000000000000000000000000000000000000, 9136833702610000000000000000000000000000000000000000000000000000000000000000000000000000000, 9145266200480000000000000000000000000000000000000000000000000000000000000000000000000000000, 9153520920830000000000000000000000000000000000000000000000000000000000000000000000000000000, 9161581754160000000000000000000000000000000000000000000000000000000000000000000000000000000, 9169434785860000000000000000000000000000000000000000000000000000000000000000000000000000000, 9177068223520000000000000000000000000000000000000000000000000000000000000000000000000000000, 9184472282300000000000000000000000000000000000000000000000000000000000000000000000000000000, 9191639046460000000000000000000000000000000000000000000000000000000000000000000000000000000, 9198562319020000000000000000000000000000000000000000000000000000000000000000000000000000000, 9205237467690000000000000000000000000000000000000000000000000000000000000000000000000000000, 9211661272670000000000000000000000000000000000000000000000000000000000000000000000000000000, 9217831779670000000000000000000000000000000000000000000000000000000000000000000000000000000, 9223748160470000000000000000000000000000000000000000000000000000000000000000000000000000000, 9229410582390000000000000000000000000000000000000000000000000000000000000000000000000000000, 9234820087290000000000000000000000000000000000000000000000000000000000000000000000000000000, 9239978480220000000000000000000000000000000000000000000000000000000000000000000000000000000, 9244888227900000000000000000000000000000000000000000000000000000000000000000000000000000000, 9249552366340000000000000000000000000000000000000000000000000000000000000000000000000000000, 9253974417520000000000000000000000000000000000000000000000000000000000000000000000000000000, 9258158314360000000000000000000000000000000000000000000000000000000000000000000000000000000, 9262108333500000000000000000000000000000000000000000000000000000000000000000000000000000000, 9265829035250000000000000000000000000000000000000000000000000000000000000000000000000000000, 9269325210230000000000000000000000000000000000000000000000000000000000000000000000000000000, 9272601831940000000000000000000000000000000000000000000000000000000000000000000000000000000, 9275664014920000000000000000000000000000000000000000000000000000000000000000000000000000000, 9278516977790000000000000000000000000000000000000000000000000000000000000000000000000000000, 9281166010850000000000000000000000000000000000000000000000000000000000000000000000000000000]),
  (826975150301000, [9117904392300000000000000000000000000000000000000000000000000000000000000000000000000000000, 9124527606440000000000000000000000000000000000000000000000000000000000000000000000000000000, 9133138119730000000000000000000000000000000000000000000000000000000000000000000000000000000, 9142229213390000000000000000000000000000000000000000000000000000000000000000000000000000000, 9151443889010000000000000000000000000000000000000000000000000000000000000000000000000000000, 9160677830390000000000000000000000000000000000000000000000000000000000000000000000000000000, 9169890808380000000000000000000000000000000000000000000000000000000000000000000000000000000, 9179057502270000000000000000000000000000000000000000000000000000000000000000000000000000000, 9188153621460000000000000000000000000000000000000000000000000000000000000000000000000000000, 9197153226030000000000000000000000000000000000000000000000000000000000000000000000000000000, 9206029415490000000000000000000000000000000000000000000000000000000000000000000000000000000, 9214755646550000000000000000000000000000000000000000000000000000000000000000000000000000000, 9223306837920000000000000000000000000000000000000000000000000000000000000000000000000000000, 9231660099110000000000000000000000000000000000000000000000000000000000000000000000000000000, 9239795129600000000000000000000000000000000000000000000000000000000000000000000000000000000, 9247694376920000000000000000000000000000000000000000000000000000000000000000000000000000000, 9255343033000000000000000000000000000000000000000000000000000000000000000000000000000000000, 9262728928350000000000000000000000000000000000000000000000000000000000000000000000000000000, 9269842365850000000000000000000000000000000000000000000000000000000000000000000000000000000, 9276675922360000000000000000000000000000000000000000000000000000000000000000000000000000000, 9283224236640000000000000000000000000000000000000000000000000000000000000000000000000000000, 9289483795840000000000000000000000000000000000000000000000000000000000000000000000000000000, 9295452727920000000000000000000000000000000000000000000000000000000000000000000000000000000, 9301130604950000000000000000000000000000000000000000000000000000000000000000000000000000000, 9306518259600000000000000000000000000000000000000000000000000000000000000000000000000000000, 9311617616390000000000000000000000000000000000000000000000000000000000000000000000000000000, 9316431537820000000000000000000000000000000000000000000000000000000000000000000000000000000, 9320963685320000000000000000000000000000000000000000000000000000000000000000000000000000000, 9325218394430000000000000000000000000000000000000000000000000000000000000000000000000000000, 9329200563250000000000000000000000000000000000000000000000000000000000000000000000000000000, 9332915553490000000000000000000000000000000000000000000000000000000000000000000000000000000, 9336369102770000000000000000000000000000000000000000000000000000000000000000000000000000000, 9339567247500000000000000000000000000000000000000000000000000000000000000000000000000000000, 9342516255160000000000000000000000000000000000000000000000000000000000000000000000000000000, 9345222565110000000000000000000000000000000000000000000000000000000000000000000000000000000, 9347692737070000000000000000000000000000000000000000000000000000000000000000000000000000000, 9349933406390000000000000000000000000000000000000000000000000000000000000000000000000000000, 9351951245500000000000000000000000000000000000000000000000000000000000000000000000000000000, 9353752930630000000000000000000000000000000000000000000000000000000000000000000000000000000, 9355345113490000000000000000000000000000000000000000000000000000000000000000000000000000000]),
  (829079158317000, [9223908922950000000000000000000000000000000000000000000000000000000000000000000000000000000, 9230561385630000000000000000000000000000000000000000000000000000000000000000000000000000000, 9239262068530000000000000000000000000000000000000000000000000000000000000000000000000000000, 9248452009020000000000000000000000000000000000000000000000000000000000000000000000000000000, 9257745874500000000000000000000000000000000000000000000000000000000000000000000000000000000, 9267021462810000000000000000000000000000000000000000000000000000000000000000000000000000000, 9276227090240000000000000000000000000000000000000000000000000000000000000000000000000000000, 9285329730890000000000000000000000000000000000000000000000000000000000000000000000000000000, 9294299695460000000000000000000000000000000000000000000000000000000000000000000000000000000, 9303107312710000000000000000000000000000000000000000000000000000000000000000000000000000000, 9311723334010000000000000000000000000000000000000000000000000000000000000000000000000000000, 9320120082400000000000000000000000000000000000000000000000000000000000000000000000000000000, 9328272411160000000000000000000000000000000000000000000000000000000000000000000000000000000, 9336158284020000000000000000000000000000000000000000000000000000000000000000000000000000000, 9343759023520000000000000000000000000000000000000000000000000000000000000000000000000000000, 9351059322120000000000000000000000000000000000000000000000000000000000000000000000000000000, 9358047101410000000000000000000000000000000000000000000000000000000000000000000000000000000, 9364713282960000000000000000000000000000000000000000000000000000000000000000000000000000000, 9371051514200000000000000000000000000000000000000000000000000000000000000000000000000000000, 9377057878070000000000000000000000000000000000000000000000000000000000000000000000000000000, 9382730604140000000000000000000000000000000000000000000000000000000000000000000000000000000, 9388069792260000000000000000000000000000000000000000000000000000000000000000000000000000000, 9393077154590000000000000000000000000000000000000000000000000000000000000000000000000000000, 9397755779170000000000000000000000000000000000000000000000000000000000000000000000000000000, 9402109916130000000000000000000000000000000000000000000000000000000000000000000000000000000, 9406144786160000000000000000000000000000000000000000000000000000000000000000000000000000000, 9409866410510000000000000000000000000000000000000000000000000000000000000000000000000000000, 9413281461000000000000000000000000000000000000000000000000000000000000000000000000000000000, 9416397128560000000000000000000000000000000000000000000000000000000000000000000000000000000, 9419221008560000000000000000000000000000000000000000000000000000000000000000000000000000000, 9421761001280000000000000000000000000000000000000000000000000000000000000000000000000000000, 9424025225970000000000000000000000000000000000000000000000000000000000000000000000000000000, 9426021946920000000000000000000000000000000000000000000000000000000000000000000000000000000, 9427759510310000000000000000000000000000000000000000000000000000000000000000000000000000000, 9429246290280000000000000000000000000000000000000000000000000000000000000000000000000000000, 9430490643500000000000000000000000000000000000000000000000000000000000000000000000000000000, 9431500870760000000000000000000000000000000000000000000000000000000000000000000000000000000, 9432285184970000000000000000000000000000000000000000000000000000000000000000000000000000000, 9432851684680000000000000000000000000000000000000000000000000000000000000000000000000000000, 9433208332330000000000000000000000000000000000000000000000000000000000000000000000000000000]),
  (831183166333000, [9342248311510000000000000000000000000000000000000000000000000000000000000000000000000000000, 9348819141830000000000000000000000000000000000000000000000000000000000000000000000000000000, 9357490618310000000000000000000000000000000000000000000000000000000000000000000000000000000, 9366644604990000000000000000000000000000000000000000000000000000000000000000000000000000000, 9375864616280000000000000000000000000000000000000000000000000000000000000000000000000000000, 9385009447680000000000000000000000000000000000000000000000000000000000000000000000000000000, 9394015893770000000000000000000000000000000000000000000000000000000000000000000000000000000, 9402843903440000000000000000000000000000000000000000000000000000000000000000000000000000000, 9411459609790000000000000000000000000000000000000000000000000000000000000000000000000000000, 9419831212330000000000000000000000000000000000000000000000000000000000000000000000000000000, 9427928963940000000000000000000000000000000000000000000000000000000000000000000000000000000, 9435726039030000000000000000000000000000000000000000000000000000000000000000000000000000000, 9443199254210000000000000000000000000000000000000000000000000000000000000000000000000000000, 9450329428340000000000000000000000000000000000000000000000000000000000000000000000000000000, 9457101426960000000000000000000000000000000000000000000000000000000000000000000000000000000, 9463503989640000000000000000000000000000000000000000000000000000000000000000000000000000000, 9469529428750000000000000000000000000000000000000000000000000000000000000000000000000000000, 9475173264300000000000000000000000000000000000000000000000000000000000000000000000000000000, 9480433837610000000000000000000000000000000000000000000000000000000000000000000000000000000, 9485311930490000000000000000000000000000000000000000000000000000000000000000000000000000000, 9489810405490000000000000000000000000000000000000000000000000000000000000000000000000000000, 9493933875190000000000000000000000000000000000000000000000000000000000000000000000000000000, 9497688404040000000000000000000000000000000000000000000000000000000000000000000000000000000, 9501081243420000000000000000000000000000000000000000000000000000000000000000000000000000000, 9504120598720000000000000000000000000000000000000000000000000000000000000000000000000000000, 9506815426360000000000000000000000000000000000000000000000000000000000000000000000000000000, 9509175258320000000000000000000000000000000000000000000000000000000000000000000000000000000, 9511210051270000000000000000000000000000000000000000000000000000000000000000000000000000000, 9512930057930000000000000000000000000000000000000000000000000000000000000000000000000000000, 9514345717730000000000000000000000000000000000000000000000000000000000000000000000000000000, 9515467564650000000000000000000000000000000000000000000000000000000000000000000000000000000, 9516306149990000000000000000000000000000000000000000000000000000000000000000000000000000000, 9516871978020000000000000000000000000000000000000000000000000000000000000000000000000000000, 9517175452840000000000000000000000000000000000000000000000000000000000000000000000000000000, 9517226834980000000000000000000000000000000000000000000000000000000000000000000000000000000, 9517036206160000000000000000000000000000000000000000000000000000000000000000000000000000000, 9516613441260000000000000000000000000000000000000000000000000000000000000000000000000000000, 9515968186290000000000000000000000000000000000000000000000000000000000000000000000000000000, 9515109841520000000000000000000000000000000000000000000000000000000000000000000000000000000, 9514047548960000000000000000000000000000000000000000000000000000000000000000000000000000000]),
  (833287174349000, [9473617361710000000000000000000000000000000000000000000000000000000000000000000000000000000, 9479945220690000000000000000000000000000000000000000000000000000000000000000000000000000000, 9488411635950000000000000000000000000000000000000000000000000000000000000000000000000000000, 9497333193040000000000000000000000000000000000000000000000000000000000000000000000000000000, 9506259931350000000000000000000000000000000000000000000000000000000000000000000000000000000, 9515031363330000000000000000000000000000000000000000000000000000000000000000000000000000000, 9523573741780000000000000000000000000000000000000000000000000000000000000000000000000000000, 9531841784880000000000000000000000000000000000000000000000000000000000000000000000000000000, 9539799756940000000000000000000000000000000000000000000000000000000000000000000000000000000, 9547416330530000000000000000000000000000000000000000000000000000000000000000000000000000000, 9554663986190000000000000000000000000000000000000000000000000000000000000000000000000000000, 9561519470360000000000000000000000000000000000000000000000000000000000000000000000000000000, 9567964183470000000000000000000000000000000000000000000000000000000000000000000000000000000, 9573984254780000000000000000000000000000000000000000000000000000000000000000000000000000000, 9579570342290000000000000000000000000000000000000000000000000000000000000000000000000000000, 9584717255080000000000000000000000000000000000000000000000000000000000000000000000000000000, 9589423484720000000000000000000000000000000000000000000000000000000000000000000000000000000, 9593690707510000000000000000000000000000000000000000000000000000000000000000000000000000000, 9597523296310000000000000000000000000000000000000000000000000000000000000000000000000000000, 9600927864140000000000000000000000000000000000000000000000000000000000000000000000000000000, 9603912850540000000000000000000000000000000000000000000000000000000000000000000000000000000, 9606488154880000000000000000000000000000000000000000000000000000000000000000000000000000000, 9608664816270000000000000000000000000000000000000000000000000000000000000000000000000000000, 9610454737700000000000000000000000000000000000000000000000000000000000000000000000000000000, 9611870450670000000000000000000000000000000000000000000000000000000000000000000000000000000, 9612924916110000000000000000000000000000000000000000000000000000000000000000000000000000000, 9613631357430000000000000000000000000000000000000000000000000000000000000000000000000000000, 9614003121500000000000000000000000000000000000000000000000000000000000000000000000000000000, 9614053563950000000000000000000000000000000000000000000000000000000000000000000000000000000, 9613795955260000000000000000000000000000000000000000000000000000000000000000000000000000000, 9613243404740000000000000000000000000000000000000000000000000000000000000000000000000000000, 9612408799600000000000000000000000000000000000000000000000000000000000000000000000000000000, 9611304756990000000000000000000000000000000000000000000000000000000000000000000000000000000, 9609943586700000000000000000000000000000000000000000000000000000000000000000000000000000000, 9608337263160000000000000000000000000000000000000000000000000000000000000000000000000000000, 9606497404910000000000000000000000000000000000000000000000000000000000000000000000000000000, 9604435260500000000000000000000000000000000000000000000000000000000000000000000000000000000, 9602161699610000000000000000000000000000000000000000000000000000000000000000000000000000000, 9599687208550000000000000000000000000000000000000000000000000000000000000000000000000000000, 9597021889250000000000000000000000000000000000000000000000000000000000000000000000000000000]),
  (835391182365000, [9618652113840000000000000000000000000000000000000000000000000000000000000000000000000000000, 9624509119770000000000000000000000000000000000000000000000000000000000000000000000000000000, 9632519640030000000000000000000000000000000000000000000000000000000000000000000000000000000, 9640931239850000000000000000000000000000000000000000000000000000000000000000000000000000000, 9649259583520000000000000000000000000000000000000000000000000000000000000000000000000000000, 9657326113740000000000000000000000000000000000000000000000000000000000000000000000000000000, 9665049085090000000000000000000000000000000000000000000000000000000000000000000000000000000, 9672381275130000000000000000000000000000000000000000000000000000000000000000000000000000000, 9679288724390000000000000000000000000000000000000000000000000000000000000000000000000000000, 9685744310450000000000000000000000000000000000000000000000000000000000000000000000000000000, 9691726375290000000000000000000000000000000000000000000000000000000000000000000000000000000, 9697218649060000000000000000000000000000000000000000000000000000000000000000000000000000000, 9702210229250000000000000000000000000000000000000000000000000000000000000000000000000000000, 9706695330530000000000000000000000000000000000000000000000000000000000000000000000000000000, 9710672827230000000000000000000000000000000000000000000000000000000000000000000000000000000, 9714145676160000000000000000000000000000000000000000000000000000000000000000000000000000000, 9717120298730000000000000000000000000000000000000000000000000000000000000000000000000000000, 9719605975840000000000000000000000000000000000000000000000000000000000000000000000000000000, 9721614286830000000000000000000000000000000000000000000000000000000000000000000000000000000, 9723158607670000000000000000000000000000000000000000000000000000000000000000000000000000000, 9724253673290000000000000000000000000000000000000000000000000000000000000000000000000000000, 9724915203050000000000000000000000000000000000000000000000000000000000000000000000000000000, 9725159584760000000000000000000000000000000000000000000000000000000000000000000000000000000, 9725003611660000000000000000000000000000000000000000000000000000000000000000000000000000000, 9724464265720000000000000000000000000000000000000000000000000000000000000000000000000000000, 9723558541170000000000000000000000000000000000000000000000000000000000000000000000000000000, 9722303302420000000000000000000000000000000000000000000000000000000000000000000000000000000, 9720715171080000000000000000000000000000000000000000000000000000000000000000000000000000000, 9718810437490000000000000000000000000000000000000000000000000000000000000000000000000000000, 9716604992810000000000000000000000000000000000000000000000000000000000000000000000000000000, 9714114278020000000000000000000000000000000000000000000000000000000000000000000000000000000, 9711353247060000000000000000000000000000000000000000000000000000000000000000000000000000000, 9708336341550000000000000000000000000000000000000000000000000000000000000000000000000000000, 9705077474910000000000000000000000000000000000000000000000000000000000000000000000000000000, 9701590024160000000000000000000000000000000000000000000000000000000000000000000000000000000, 9697886827970000000000000000000000000000000000000000000000000000000000000000000000000000000, 9693980189610000000000000000000000000000000000000000000000000000000000000000000000000000000, 9689881883770000000000000000000000000000000000000000000000000000000000000000000000000000000, 9685603166510000000000000000000000000000000000000000000000000000000000000000000000000000000, 9681154787510000000000000000000000000000000000000000000000000000000000000000000000000000000]),
  (837495190381000, [9777885452000000000000000000000000000000000000000000000000000000000000000000000000000000000, 9782954303510000000000000000000000000000000000000000000000000000000000000000000000000000000, 9790159741020000000000000000000000000000000000000000000000000000000000000000000000000000000, 9797679481360000000000000000000000000000000000000000000000000000000000000000000000000000000, 9804996300830000000000000000000000000000000000000000000000000000000000000000000000000000000, 9811917036240000000000000000000000000000000000000000000000000000000000000000000000000000000, 9818356573240000000000000000000000000000000000000000000000000000000000000000000000000000000, 9824270842000000000000000000000000000000000000000000000000000000000000000000000000000000000, 9829632765670000000000000000000000000000000000000000000000000000000000000000000000000000000, 9834424271020000000000000000000000000000000000000000000000000000000000000000000000000000000, 9838633982030000000000000000000000000000000000000000000000000000000000000000000000000000000, 9842256526330000000000000000000000000000000000000000000000000000000000000000000000000000000, 9845292076310000000000000000000000000000000000000000000000000000000000000000000000000000000, 9847745781230000000000000000000000000000000000000000000000000000000000000000000000000000000, 9849627082200000000000000000000000000000000000000000000000000000000000000000000000000000000, 9850948978990000000000000000000000000000000000000000000000000000000000000000000000000000000, 9851727312070000000000000000000000000000000000000000000000000000000000000000000000000000000, 9851980101040000000000000000000000000000000000000000000000000000000000000000000000000000000, 9851726959900000000000000000000000000000000000000000000000000000000000000000000000000000000, 9850988595710000000000000000000000000000000000000000000000000000000000000000000000000000000, 9849786388430000000000000000000000000000000000000000000000000000000000000000000000000000000, 9848142045490000000000000000000000000000000000000000000000000000000000000000000000000000000, 9846077322410000000000000000000000000000000000000000000000000000000000000000000000000000000, 9843613800450000000000000000000000000000000000000000000000000000000000000000000000000000000, 9840772712630000000000000000000000000000000000000000000000000000000000000000000000000000000, 9837574810220000000000000000000000000000000000000000000000000000000000000000000000000000000, 9834040262740000000000000000000000000000000000000000000000000000000000000000000000000000000, 9830188585380000000000000000000000000000000000000000000000000000000000000000000000000000000, 9826038588870000000000000000000000000000000000000000000000000000000000000000000000000000000, 9821608347350000000000000000000000000000000000000000000000000000000000000000000000000000000, 9816915180690000000000000000000000000000000000000000000000000000000000000000000000000000000, 9811975648340000000000000000000000000000000000000000000000000000000000000000000000000000000, 9806805552200000000000000000000000000000000000000000000000000000000000000000000000000000000, 9801419946430000000000000000000000000000000000000000000000000000000000000000000000000000000, 9795833152730000000000000000000000000000000000000000000000000000000000000000000000000000000, 9790058779510000000000000000000000000000000000000000000000000000000000000000000000000000000, 9784109744090000000000000000000000000000000000000000000000000000000000000000000000000000000, 9777998296920000000000000000000000000000000000000000000000000000000000000000000000000000000, 9771736047090000000000000000000000000000000000000000000000000000000000000000000000000000000, 9765333988680000000000000000000000000000000000000000000000000000000000000000000000000000000]),
  (839599198397000, [9951685923070000000000000000000000000000000000000000000000000000000000000000000000000000000, 9955529271990000000000000000000000000000000000000000000000000000000000000000000000000000000, 9961453593940000000000000000000000000000000000000000000000000000000000000000000000000000000, 9967568408560000000000000000000000000000000000000000000000000000000000000000000000000000000, 9973328315260000000000000000000000000000000000000000000000000000000000000000000000000000000, 9978531977980000000000000000000000000000000000000000000000000000000000000000000000000000000, 9983098019000000000000000000000000000000000000000000000000000000000000000000000000000000000, 9986992521870000000000000000000000000000000000000000000000000000000000000000000000000000000, 9990201753110000000000000000000000000000000000000000000000000000000000000000000000000000000, 9992722396370000000000000000000000000000000000000000000000000000000000000000000000000000000, 9994558233430000000000000000000000000000000000000000000000000000000000000000000000000000000, 9995718835070000000000000000000000000000000000000000000000000000000000000000000000000000000, 9996218713570000000000000000000000000000000000000000000000000000000000000000000000000000000, 9996076511730000000000000000000000000000000000000000000000000000000000000000000000000000000, 9995314176390000000000000000000000000000000000000000000000000000000000000000000000000000000, 9993956156470000000000000000000000000000000000000000000000000000000000000000000000000000000, 9992028668370000000000000000000000000000000000000000000000000000000000000000000000000000000, 9989559054140000000000000000000000000000000000000000000000000000000000000000000000000000000, 9986575240780000000000000000000000000000000000000000000000000000000000000000000000000000000, 9983105298200000000000000000000000000000000000000000000000000000000000000000000000000000000, 9979177086980000000000000000000000000000000000000000000000000000000000000000000000000000000, 9974817984540000000000000000000000000000000000000000000000000000000000000000000000000000000, 9970054677860000000000000000000000000000000000000000000000000000000000000000000000000000000, 9964913011310000000000000000000000000000000000000000000000000000000000000000000000000000000, 9959417879530000000000000000000000000000000000000000000000000000000000000000000000000000000, 9953593156640000000000000000000000000000000000000000000000000000000000000000000000000000000, 9947461654200000000000000000000000000000000000000000000000000000000000000000000000000000000, 9941045101960000000000000000000000000000000000000000000000000000000000000000000000000000000, 9934364146120000000000000000000000000000000000000000000000000000000000000000000000000000000, 9927438361060000000000000000000000000000000000000000000000000000000000000000000000000000000, 9920286271300000000000000000000000000000000000000000000000000000000000000000000000000000000, 9912925380740000000000000000000000000000000000000000000000000000000000000000000000000000000, 9905372207320000000000000000000000000000000000000000000000000000000000000000000000000000000, 9897642321210000000000000000000000000000000000000000000000000000000000000000000000000000000, 9889750385290000000000000000000000000000000000000000000000000000000000000000000000000000000, 9881710196820000000000000000000000000000000000000000000000000000000000000000000000000000000, 9873534729580000000000000000000000000000000000000000000000000000000000000000000000000000000, 9865236175670000000000000000000000000000000000000000000000000000000000000000000000000000000, 9856825986790000000000000000000000000000000000000000000000000000000000000000000000000000000, 9848314914370000000000000000000000000000000000000000000000000000000000000000000000000000000])]
noncomputable def ttSpec16 : List (Nat × List Nat) := [
  (841703206413000, [10140172333500000000000000000000000000000000000000000000000000000000000000000000000000000000, 10142196178300000000000000000000000000000000000000000000000000000000000000000000000000000000, 10146203910500000000000000000000000000000000000000000000000000000000000000000000000000000000, 10150240865600000000000000000000000000000000000000000000000000000000000000000000000000000000, 10153742115600000000000000000000000000000000000000000000000000000000000000000000000000000000, 10156508042500000000000000000000000000000000000000000000000000000000000000000000000000000000, 10158470649500000000000000000000000000000000000000000000000000000000000000000000000000000000, 10159614821700000000000000000000000000000000000000000000000000000000000000000000000000000000, 10159947526300000000000000000000000000000000000000000000000000000000000000000000000000000000, 10159486219400000000000000000000000000000000000000000000000000000000000000000000000000000000, 10158254587000000000000000000000000000000000000000000000000000000000000000000000000000000000, 10156280752700000000000000000000000000000000000000000000000000000000000000000000000000000000, 10153596194800000000000000000000000000000000000000000000000000000000000000000000000000000000, 10150234848600000000000000000000000000000000000000000000000000000000000000000000000000000000, 10146232284300000000000000000000000000000000000000000000000000000000000000000000000000000000, 10141624966500000000000000000000000000000000000000000000000000000000000000000000000000000000, 10136449617100000000000000000000000000000000000000000000000000000000000000000000000000000000, 10130742689100000000000000000000000000000000000000000000000000000000000000000000000000000000, 10124539950300000000000000000000000000000000000000000000000000000000000000000000000000000000, 10117876166100000000000000000000000000000000000000000000000000000000000000000000000000000000, 10110784869100000000000000000000000000000000000000000000000000000000000000000000000000000000, 10103298199500000000000000000000000000000000000000000000000000000000000000000000000000000000, 10095446804700000000000000000000000000000000000000000000000000000000000000000000000000000000, 10087259783700000000000000000000000000000000000000000000000000000000000000000000000000000000, 10078764668100000000000000000000000000000000000000000000000000000000000000000000000000000000, 10069987430500000000000000000000000000000000000000000000000000000000000000000000000000000000, 10060952512400000000000000000000000000000000000000000000000000000000000000000000000000000000, 10051682867600000000000000000000000000000000000000000000000000000000000000000000000000000000, 10042200015600000000000000000000000000000000000000000000000000000000000000000000000000000000, 10032524102000000000000000000000000000000000000000000000000000000000000000000000000000000000, 10022673962900000000000000000000000000000000000000000000000000000000000000000000000000000000, 10012667192000000000000000000000000000000000000000000000000000000000000000000000000000000000, 10002520207700000000000000000000000000000000000000000000000000000000000000000000000000000000, 9992248320060000000000000000000000000000000000000000000000000000000000000000000000000000000, 9981865796070000000000000000000000000000000000000000000000000000000000000000000000000000000, 9971385923310000000000000000000000000000000000000000000000000000000000000000000000000000000, 9960821070840000000000000000000000000000000000000000000000000000000000000000000000000000000, 9950182747510000000000000000000000000000000000000000000000000000000000000000000000000000000, 9939481657500000000000000000000000000000000000000000000000000000000000000000000000000000000, 9928727752800000000000000000000000000000000000000000000000000000000000000000000000000000000]),
  (843807214429000, [10343097711000000000000000000000000000000000000000000000000000000000000000000000000000000000, 10342512559100000000000000000000000000000000000000000000000000000000000000000000000000000000, 10343774771800000000000000000000000000000000000000000000000000000000000000000000000000000000, 10344873531400000000000000000000000000000000000000000000000000000000000000000000000000000000, 10345237585500000000000000000000000000000000000000000000000000000000000000000000000000000000, 10344682379100000000000000000000000000000000000000000000000000000000000000000000000000000000, 10343164974500000000000000000000000000000000000000000000000000000000000000000000000000000000, 10340698563000000000000000000000000000000000000000000000000000000000000000000000000000000000, 10337318161200000000000000000000000000000000000000000000000000000000000000000000000000000000, 10333067414400000000000000000000000000000000000000000000000000000000000000000000000000000000, 10327993688500000000000000000000000000000000000000000000000000000000000000000000000000000000, 10322146085600000000000000000000000000000000000000000000000000000000000000000000000000000000, 10315574396900000000000000000000000000000000000000000000000000000000000000000000000000000000, 10308328351400000000000000000000000000000000000000000000000000000000000000000000000000000000, 10300456997200000000000000000000000000000000000000000000000000000000000000000000000000000000, 10292008185600000000000000000000000000000000000000000000000000000000000000000000000000000000, 10283028163000000000000000000000000000000000000000000000000000000000000000000000000000000000, 10273561264700000000000000000000000000000000000000000000000000000000000000000000000000000000, 10263649705800000000000000000000000000000000000000000000000000000000000000000000000000000000, 10253333452400000000000000000000000000000000000000000000000000000000000000000000000000000000, 10242650161700000000000000000000000000000000000000000000000000000000000000000000000000000000, 10231635174200000000000000000000000000000000000000000000000000000000000000000000000000000000, 10220321545800000000000000000000000000000000000000000000000000000000000000000000000000000000, 10208740110900000000000000000000000000000000000000000000000000000000000000000000000000000000, 10196919564500000000000000000000000000000000000000000000000000000000000000000000000000000000, 10184886559100000000000000000000000000000000000000000000000000000000000000000000000000000000, 10172665809800000000000000000000000000000000000000000000000000000000000000000000000000000000, 10160280203300000000000000000000000000000000000000000000000000000000000000000000000000000000, 10147750908400000000000000000000000000000000000000000000000000000000000000000000000000000000, 10135097484800000000000000000000000000000000000000000000000000000000000000000000000000000000, 10122337989600000000000000000000000000000000000000000000000000000000000000000000000000000000, 10109489080300000000000000000000000000000000000000000000000000000000000000000000000000000000, 10096566112000000000000000000000000000000000000000000000000000000000000000000000000000000000, 10083583230500000000000000000000000000000000000000000000000000000000000000000000000000000000, 10070553460200000000000000000000000000000000000000000000000000000000000000000000000000000000, 10057488786200000000000000000000000000000000000000000000000000000000000000000000000000000000, 10044400230800000000000000000000000000000000000000000000000000000000000000000000000000000000, 10031297926300000000000000000000000000000000000000000000000000000000000000000000000000000000, 10018191180800000000000000000000000000000000000000000000000000000000000000000000000000000000, 10005088541200000000000000000000000000000000000000000000000000000000000000000000000000000000]),
  (845911222445000, [10559699411200000000000000000000000000000000000000000000000000000000000000000000000000000000, 10555483224100000000000000000000000000000000000000000000000000000000000000000000000000000000, 10552946722100000000000000000000000000000000000000000000000000000000000000000000000000000000, 10550038199800000000000000000000000000000000000000000000000000000000000000000000000000000000, 10546198071600000000000000000000000000000000000000000000000000000000000000000000000000000000, 10541272802700000000000000000000000000000000000000000000000000000000000000000000000000000000, 10535256919900000000000000000000000000000000000000000000000000000000000000000000000000000000, 10528200836900000000000000000000000000000000000000000000000000000000000000000000000000000000, 10520173572900000000000000000000000000000000000000000000000000000000000000000000000000000000, 10511248547500000000000000000000000000000000000000000000000000000000000000000000000000000000, 10501498562800000000000000000000000000000000000000000000000000000000000000000000000000000000, 10490994083300000000000000000000000000000000000000000000000000000000000000000000000000000000, 10479802592300000000000000000000000000000000000000000000000000000000000000000000000000000000, 10467988279700000000000000000000000000000000000000000000000000000000000000000000000000000000, 10455611851300000000000000000000000000000000000000000000000000000000000000000000000000000000, 10442730411800000000000000000000000000000000000000000000000000000000000000000000000000000000, 10429397413900000000000000000000000000000000000000000000000000000000000000000000000000000000, 10415662670500000000000000000000000000000000000000000000000000000000000000000000000000000000, 10401572420700000000000000000000000000000000000000000000000000000000000000000000000000000000, 10387169441400000000000000000000000000000000000000000000000000000000000000000000000000000000, 10372493191200000000000000000000000000000000000000000000000000000000000000000000000000000000, 10357579977900000000000000000000000000000000000000000000000000000000000000000000000000000000, 10342463139000000000000000000000000000000000000000000000000000000000000000000000000000000000, 10327173229700000000000000000000000000000000000000000000000000000000000000000000000000000000, 10311738211300000000000000000000000000000000000000000000000000000000000000000000000000000000, 10296183636700000000000000000000000000000000000000000000000000000000000000000000000000000000, 10280532830100000000000000000000000000000000000000000000000000000000000000000000000000000000, 10264807058500000000000000000000000000000000000000000000000000000000000000000000000000000000, 10249025694300000000000000000000000000000000000000000000000000000000000000000000000000000000, 10233206367300000000000000000000000000000000000000000000000000000000000000000000000000000000, 10217365108100000000000000000000000000000000000000000000000000000000000000000000000000000000, 10201516479900000000000000000000000000000000000000000000000000000000000000000000000000000000, 10185673701200000000000000000000000000000000000000000000000000000000000000000000000000000000, 10169848759200000000000000000000000000000000000000000000000000000000000000000000000000000000, 10154052514300000000000000000000000000000000000000000000000000000000000000000000000000000000, 10138294795300000000000000000000000000000000000000000000000000000000000000000000000000000000, 10122584488200000000000000000000000000000000000000000000000000000000000000000000000000000000, 10106929616000000000000000000000000000000000000000000000000000000000000000000000000000000000, 10091337413500000000000000000000000000000000000000000000000000000000000000000000000000000000, 10075814394100000000000000000000000000000000000000000000000000000000000000000000000000000000]),
  (848015230461000, [10788514991500000000000000000000000000000000000000000000000000000000000000000000000000000000, 10779382129500000000000000000000000000000000000000000000000000000000000000000000000000000000, 10771748753800000000000000000000000000000000000000000000000000000000000000000000000000000000, 10763547154700000000000000000000000000000000000000000000000000000000000000000000000000000000, 10754251294700000000000000000000000000000000000000000000000000000000000000000000000000000000, 10743755184400000000000000000000000000000000000000000000000000000000000000000000000000000000, 10732101682800000000000000000000000000000000000000000000000000000000000000000000000000000000, 10719384652300000000000000000000000000000000000000000000000000000000000000000000000000000000, 10705709881100000000000000000000000000000000000000000000000000000000000000000000000000000000, 10691180867800000000000000000000000000000000000000000000000000000000000000000000000000000000, 10675894462700000000000000000000000000000000000000000000000000000000000000000000000000000000, 10659939984400000000000000000000000000000000000000000000000000000000000000000000000000000000, 10643399397000000000000000000000000000000000000000000000000000000000000000000000000000000000, 10626347739200000000000000000000000000000000000000000000000000000000000000000000000000000000, 10608853576300000000000000000000000000000000000000000000000000000000000000000000000000000000, 10590979430400000000000000000000000000000000000000000000000000000000000000000000000000000000, 10572782190100000000000000000000000000000000000000000000000000000000000000000000000000000000, 10554313506300000000000000000000000000000000000000000000000000000000000000000000000000000000, 10535620176800000000000000000000000000000000000000000000000000000000000000000000000000000000, 10516744520900000000000000000000000000000000000000000000000000000000000000000000000000000000, 10497724739500000000000000000000000000000000000000000000000000000000000000000000000000000000, 10478595259600000000000000000000000000000000000000000000000000000000000000000000000000000000, 10459387060300000000000000000000000000000000000000000000000000000000000000000000000000000000, 10440127978200000000000000000000000000000000000000000000000000000000000000000000000000000000, 10420842992200000000000000000000000000000000000000000000000000000000000000000000000000000000, 10401554486700000000000000000000000000000000000000000000000000000000000000000000000000000000, 10382282494200000000000000000000000000000000000000000000000000000000000000000000000000000000, 10363044917300000000000000000000000000000000000000000000000000000000000000000000000000000000, 10343857731400000000000000000000000000000000000000000000000000000000000000000000000000000000, 10324735169600000000000000000000000000000000000000000000000000000000000000000000000000000000, 10305689890600000000000000000000000000000000000000000000000000000000000000000000000000000000, 10286733131100000000000000000000000000000000000000000000000000000000000000000000000000000000, 10267874843400000000000000000000000000000000000000000000000000000000000000000000000000000000, 10249123820700000000000000000000000000000000000000000000000000000000000000000000000000000000, 10230487810000000000000000000000000000000000000000000000000000000000000000000000000000000000, 10211973613600000000000000000000000000000000000000000000000000000000000000000000000000000000, 10193587182100000000000000000000000000000000000000000000000000000000000000000000000000000000, 10175333697200000000000000000000000000000000000000000000000000000000000000000000000000000000, 10157217647000000000000000000000000000000000000000000000000000000000000000000000000000000000, 10139242893900000000000000000000000000000000000000000000000000000000000000000000000000000000]),
  (850119238477000, [11027165186700000000000000000000000000000000000000000000000000000000000000000000000000000000, 11011548377800000000000000000000000000000000000000000000000000000000000000000000000000000000, 10997274101100000000000000000000000000000000000000000000000000000000000000000000000000000000, 10982291654400000000000000000000000000000000000000000000000000000000000000000000000000000000, 10966131319600000000000000000000000000000000000000000000000000000000000000000000000000000000, 10948748259200000000000000000000000000000000000000000000000000000000000000000000000000000000, 10930239831500000000000000000000000000000000000000000000000000000000000000000000000000000000, 10910744304400000000000000000000000000000000000000000000000000000000000000000000000000000000, 10890401845300000000000000000000000000000000000000000000000000000000000000000000000000000000, 10869341622300000000000000000000000000000000000000000000000000000000000000000000000000000000, 10847678997800000000000000000000000000000000000000000000000000000000000000000000000000000000, 10825516072100000000000000000000000000000000000000000000000000000000000000000000000000000000, 10802943065900000000000000000000000000000000000000000000000000000000000000000000000000000000, 10780039734500000000000000000000000000000000000000000000000000000000000000000000000000000000, 10756876614200000000000000000000000000000000000000000000000000000000000000000000000000000000, 10733516086800000000000000000000000000000000000000000000000000000000000000000000000000000000, 10710013294000000000000000000000000000000000000000000000000000000000000000000000000000000000, 10686416934300000000000000000000000000000000000000000000000000000000000000000000000000000000, 10662769964300000000000000000000000000000000000000000000000000000000000000000000000000000000, 10639110223100000000000000000000000000000000000000000000000000000000000000000000000000000000, 10615470988500000000000000000000000000000000000000000000000000000000000000000000000000000000, 10591881475800000000000000000000000000000000000000000000000000000000000000000000000000000000, 10568367282800000000000000000000000000000000000000000000000000000000000000000000000000000000, 10544950788700000000000000000000000000000000000000000000000000000000000000000000000000000000, 10521651509900000000000000000000000000000000000000000000000000000000000000000000000000000000, 10498486417700000000000000000000000000000000000000000000000000000000000000000000000000000000, 10475470221800000000000000000000000000000000000000000000000000000000000000000000000000000000, 10452615622100000000000000000000000000000000000000000000000000000000000000000000000000000000, 10429933534100000000000000000000000000000000000000000000000000000000000000000000000000000000, 10407433288200000000000000000000000000000000000000000000000000000000000000000000000000000000, 10385122807800000000000000000000000000000000000000000000000000000000000000000000000000000000, 10363008767600000000000000000000000000000000000000000000000000000000000000000000000000000000, 10341096734100000000000000000000000000000000000000000000000000000000000000000000000000000000, 10319391291100000000000000000000000000000000000000000000000000000000000000000000000000000000, 10297896150400000000000000000000000000000000000000000000000000000000000000000000000000000000, 10276614251900000000000000000000000000000000000000000000000000000000000000000000000000000000, 10255547850500000000000000000000000000000000000000000000000000000000000000000000000000000000, 10234698595800000000000000000000000000000000000000000000000000000000000000000000000000000000, 10214067601300000000000000000000000000000000000000000000000000000000000000000000000000000000, 10193655506600000000000000000000000000000000000000000000000000000000000000000000000000000000]),
  (852223246493000, [11272108476800000000000000000000000000000000000000000000000000000000000000000000000000000000, 11248166883700000000000000000000000000000000000000000000000000000000000000000000000000000000, 11225493377700000000000000000000000000000000000000000000000000000000000000000000000000000000, 11202088449800000000000000000000000000000000000000000000000000000000000000000000000000000000, 11177556708800000000000000000000000000000000000000000000000000000000000000000000000000000000, 11151920377100000000000000000000000000000000000000000000000000000000000000000000000000000000, 11125329090800000000000000000000000000000000000000000000000000000000000000000000000000000000, 11097958584000000000000000000000000000000000000000000000000000000000000000000000000000000000, 11069974102500000000000000000000000000000000000000000000000000000000000000000000000000000000, 11041520263000000000000000000000000000000000000000000000000000000000000000000000000000000000, 11012720633900000000000000000000000000000000000000000000000000000000000000000000000000000000, 10983680167200000000000000000000000000000000000000000000000000000000000000000000000000000000, 10954488028700000000000000000000000000000000000000000000000000000000000000000000000000000000, 10925220109000000000000000000000000000000000000000000000000000000000000000000000000000000000, 10895941096000000000000000000000000000000000000000000000000000000000000000000000000000000000, 10866706162400000000000000000000000000000000000000000000000000000000000000000000000000000000, 10837562347600000000000000000000000000000000000000000000000000000000000000000000000000000000, 10808549703800000000000000000000000000000000000000000000000000000000000000000000000000000000, 10779702258900000000000000000000000000000000000000000000000000000000000000000000000000000000, 10751048833100000000000000000000000000000000000000000000000000000000000000000000000000000000, 10722613736700000000000000000000000000000000000000000000000000000000000000000000000000000000, 10694417370000000000000000000000000000000000000000000000000000000000000000000000000000000000, 10666476741300000000000000000000000000000000000000000000000000000000000000000000000000000000, 10638805914400000000000000000000000000000000000000000000000000000000000000000000000000000000, 10611416396800000000000000000000000000000000000000000000000000000000000000000000000000000000, 10584317476900000000000000000000000000000000000000000000000000000000000000000000000000000000, 10557516517200000000000000000000000000000000000000000000000000000000000000000000000000000000, 10531019208500000000000000000000000000000000000000000000000000000000000000000000000000000000, 10504829792500000000000000000000000000000000000000000000000000000000000000000000000000000000, 10478951254700000000000000000000000000000000000000000000000000000000000000000000000000000000, 10453385493700000000000000000000000000000000000000000000000000000000000000000000000000000000, 10428133467400000000000000000000000000000000000000000000000000000000000000000000000000000000, 10403195322500000000000000000000000000000000000000000000000000000000000000000000000000000000, 10378570506100000000000000000000000000000000000000000000000000000000000000000000000000000000, 10354257863900000000000000000000000000000000000000000000000000000000000000000000000000000000, 10330255726000000000000000000000000000000000000000000000000000000000000000000000000000000000, 10306561982000000000000000000000000000000000000000000000000000000000000000000000000000000000, 10283174146300000000000000000000000000000000000000000000000000000000000000000000000000000000, 10260089415900000000000000000000000000000000000000000000000000000000000000000000000000000000, 10237304720100000000000000000000000000000000000000000000000000000000000000000000000000000000]),
  (854327254509000, [11518379916800000000000000000000000000000000000000000000000000000000000000000000000000000000, 11484053325400000000000000000000000000000000000000000000000000000000000000000000000000000000, 11451086747900000000000000000000000000000000000000000000000000000000000000000000000000000000, 11417555794600000000000000000000000000000000000000000000000000000000000000000000000000000000, 11383144854700000000000000000000000000000000000000000000000000000000000000000000000000000000, 11347936110300000000000000000000000000000000000000000000000000000000000000000000000000000000, 11312117442500000000000000000000000000000000000000000000000000000000000000000000000000000000, 11275885206700000000000000000000000000000000000000000000000000000000000000000000000000000000, 11239412493400000000000000000000000000000000000000000000000000000000000000000000000000000000, 11202842965200000000000000000000000000000000000000000000000000000000000000000000000000000000, 11166293352500000000000000000000000000000000000000000000000000000000000000000000000000000000, 11129857945400000000000000000000000000000000000000000000000000000000000000000000000000000000, 11093612861900000000000000000000000000000000000000000000000000000000000000000000000000000000, 11057619562800000000000000000000000000000000000000000000000000000000000000000000000000000000, 11021927622400000000000000000000000000000000000000000000000000000000000000000000000000000000, 10986576900600000000000000000000000000000000000000000000000000000000000000000000000000000000, 10951599257400000000000000000000000000000000000000000000000000000000000000000000000000000000, 10917019923000000000000000000000000000000000000000000000000000000000000000000000000000000000, 10882858607300000000000000000000000000000000000000000000000000000000000000000000000000000000, 10849130407200000000000000000000000000000000000000000000000000000000000000000000000000000000, 10815846557300000000000000000000000000000000000000000000000000000000000000000000000000000000, 10783015052300000000000000000000000000000000000000000000000000000000000000000000000000000000, 10750641169800000000000000000000000000000000000000000000000000000000000000000000000000000000, 10718727907800000000000000000000000000000000000000000000000000000000000000000000000000000000, 10687276354500000000000000000000000000000000000000000000000000000000000000000000000000000000, 10656286000300000000000000000000000000000000000000000000000000000000000000000000000000000000, 10625755002900000000000000000000000000000000000000000000000000000000000000000000000000000000, 10595680411200000000000000000000000000000000000000000000000000000000000000000000000000000000, 10566058356400000000000000000000000000000000000000000000000000000000000000000000000000000000, 10536884213900000000000000000000000000000000000000000000000000000000000000000000000000000000, 10508152741700000000000000000000000000000000000000000000000000000000000000000000000000000000, 10479858198000000000000000000000000000000000000000000000000000000000000000000000000000000000, 10451994441100000000000000000000000000000000000000000000000000000000000000000000000000000000, 10424555014700000000000000000000000000000000000000000000000000000000000000000000000000000000, 10397533220800000000000000000000000000000000000000000000000000000000000000000000000000000000, 10370922181500000000000000000000000000000000000000000000000000000000000000000000000000000000, 10344714891100000000000000000000000000000000000000000000000000000000000000000000000000000000, 10318904261100000000000000000000000000000000000000000000000000000000000000000000000000000000, 10293483157800000000000000000000000000000000000000000000000000000000000000000000000000000000, 10268444434400000000000000000000000000000000000000000000000000000000000000000000000000000000]),
  (856431262525000, [11759341703200000000000000000000000000000000000000000000000000000000000000000000000000000000, 11712474598000000000000000000000000000000000000000000000000000000000000000000000000000000000, 11667325607600000000000000000000000000000000000000000000000000000000000000000000000000000000, 11622046476900000000000000000000000000000000000000000000000000000000000000000000000000000000, 11576386276000000000000000000000000000000000000000000000000000000000000000000000000000000000, 11530462679300000000000000000000000000000000000000000000000000000000000000000000000000000000, 11484473945700000000000000000000000000000000000000000000000000000000000000000000000000000000, 11438609731600000000000000000000000000000000000000000000000000000000000000000000000000000000, 11393026077000000000000000000000000000000000000000000000000000000000000000000000000000000000, 11347843819100000000000000000000000000000000000000000000000000000000000000000000000000000000, 11303153987800000000000000000000000000000000000000000000000000000000000000000000000000000000, 11259024091400000000000000000000000000000000000000000000000000000000000000000000000000000000, 11215503484900000000000000000000000000000000000000000000000000000000000000000000000000000000, 11172627550000000000000000000000000000000000000000000000000000000000000000000000000000000000, 11130420857100000000000000000000000000000000000000000000000000000000000000000000000000000000, 11088899551700000000000000000000000000000000000000000000000000000000000000000000000000000000, 11048073170300000000000000000000000000000000000000000000000000000000000000000000000000000000, 11007946038900000000000000000000000000000000000000000000000000000000000000000000000000000000, 10968518363600000000000000000000000000000000000000000000000000000000000000000000000000000000, 10929787091200000000000000000000000000000000000000000000000000000000000000000000000000000000, 10891746594400000000000000000000000000000000000000000000000000000000000000000000000000000000, 10854389221100000000000000000000000000000000000000000000000000000000000000000000000000000000, 10817705738700000000000000000000000000000000000000000000000000000000000000000000000000000000, 10781685693300000000000000000000000000000000000000000000000000000000000000000000000000000000, 10746317703000000000000000000000000000000000000000000000000000000000000000000000000000000000, 10711589696400000000000000000000000000000000000000000000000000000000000000000000000000000000, 10677489107400000000000000000000000000000000000000000000000000000000000000000000000000000000, 10644003034400000000000000000000000000000000000000000000000000000000000000000000000000000000, 10611118369900000000000000000000000000000000000000000000000000000000000000000000000000000000, 10578821907000000000000000000000000000000000000000000000000000000000000000000000000000000000, 10547100424800000000000000000000000000000000000000000000000000000000000000000000000000000000, 10515940758400000000000000000000000000000000000000000000000000000000000000000000000000000000, 10485329855100000000000000000000000000000000000000000000000000000000000000000000000000000000, 10455254819300000000000000000000000000000000000000000000000000000000000000000000000000000000, 10425702948000000000000000000000000000000000000000000000000000000000000000000000000000000000, 10396661758900000000000000000000000000000000000000000000000000000000000000000000000000000000, 10368119011900000000000000000000000000000000000000000000000000000000000000000000000000000000, 10340062725200000000000000000000000000000000000000000000000000000000000000000000000000000000, 10312481187200000000000000000000000000000000000000000000000000000000000000000000000000000000, 10285362964500000000000000000000000000000000000000000000000000000000000000000000000000000000]),
  (858535270541000, [11986492747800000000000000000000000000000000000000000000000000000000000000000000000000000000, 11925048479100000000000000000000000000000000000000000000000000000000000000000000000000000000, 11866041845800000000000000000000000000000000000000000000000000000000000000000000000000000000, 11807669386200000000000000000000000000000000000000000000000000000000000000000000000000000000, 11749704086400000000000000000000000000000000000000000000000000000000000000000000000000000000, 11692255870200000000000000000000000000000000000000000000000000000000000000000000000000000000, 11635492334600000000000000000000000000000000000000000000000000000000000000000000000000000000, 11579560287700000000000000000000000000000000000000000000000000000000000000000000000000000000, 11524568169500000000000000000000000000000000000000000000000000000000000000000000000000000000, 11470588691700000000000000000000000000000000000000000000000000000000000000000000000000000000, 11417666410900000000000000000000000000000000000000000000000000000000000000000000000000000000, 11365825042300000000000000000000000000000000000000000000000000000000000000000000000000000000, 11315073243200000000000000000000000000000000000000000000000000000000000000000000000000000000, 11265408883100000000000000000000000000000000000000000000000000000000000000000000000000000000, 11216822126600000000000000000000000000000000000000000000000000000000000000000000000000000000, 11169297655500000000000000000000000000000000000000000000000000000000000000000000000000000000, 11122816280600000000000000000000000000000000000000000000000000000000000000000000000000000000, 11077356123000000000000000000000000000000000000000000000000000000000000000000000000000000000, 11032893488600000000000000000000000000000000000000000000000000000000000000000000000000000000, 10989403520900000000000000000000000000000000000000000000000000000000000000000000000000000000, 10946860692000000000000000000000000000000000000000000000000000000000000000000000000000000000, 10905239172300000000000000000000000000000000000000000000000000000000000000000000000000000000, 10864513110800000000000000000000000000000000000000000000000000000000000000000000000000000000, 10824656845400000000000000000000000000000000000000000000000000000000000000000000000000000000, 10785645060900000000000000000000000000000000000000000000000000000000000000000000000000000000, 10747452906300000000000000000000000000000000000000000000000000000000000000000000000000000000, 10710056080100000000000000000000000000000000000000000000000000000000000000000000000000000000, 10673430891300000000000000000000000000000000000000000000000000000000000000000000000000000000, 10637554301000000000000000000000000000000000000000000000000000000000000000000000000000000000, 10602403949200000000000000000000000000000000000000000000000000000000000000000000000000000000, 10567958169200000000000000000000000000000000000000000000000000000000000000000000000000000000, 10534195993900000000000000000000000000000000000000000000000000000000000000000000000000000000, 10501097154000000000000000000000000000000000000000000000000000000000000000000000000000000000, 10468642071500000000000000000000000000000000000000000000000000000000000000000000000000000000, 10436811848500000000000000000000000000000000000000000000000000000000000000000000000000000000, 10405588253200000000000000000000000000000000000000000000000000000000000000000000000000000000, 10374953703700000000000000000000000000000000000000000000000000000000000000000000000000000000, 10344891249600000000000000000000000000000000000000000000000000000000000000000000000000000000, 10315384552900000000000000000000000000000000000000000000000000000000000000000000000000000000, 10286417868400000000000000000000000000000000000000000000000000000000000000000000000000000000]),
  (860639278557000, [12189404288800000000000000000000000000000000000000000000000000000000000000000000000000000000, 12111776180400000000000000000000000000000000000000000000000000000000000000000000000000000000, 12037726497400000000000000000000000000000000000000000000000000000000000000000000000000000000, 11965431030500000000000000000000000000000000000000000000000000000000000000000000000000000000, 11894621504300000000000000000000000000000000000000000000000000000000000000000000000000000000, 11825341608100000000000000000000000000000000000000000000000000000000000000000000000000000000, 11757678438500000000000000000000000000000000000000000000000000000000000000000000000000000000, 11691695311300000000000000000000000000000000000000000000000000000000000000000000000000000000, 11627420769300000000000000000000000000000000000000000000000000000000000000000000000000000000, 11564854030900000000000000000000000000000000000000000000000000000000000000000000000000000000, 11503973317700000000000000000000000000000000000000000000000000000000000000000000000000000000, 11444742989100000000000000000000000000000000000000000000000000000000000000000000000000000000, 11387118778600000000000000000000000000000000000000000000000000000000000000000000000000000000, 11331051410300000000000000000000000000000000000000000000000000000000000000000000000000000000, 11276489032500000000000000000000000000000000000000000000000000000000000000000000000000000000, 11223378837200000000000000000000000000000000000000000000000000000000000000000000000000000000, 11171668132600000000000000000000000000000000000000000000000000000000000000000000000000000000, 11121305045700000000000000000000000000000000000000000000000000000000000000000000000000000000, 11072238978900000000000000000000000000000000000000000000000000000000000000000000000000000000, 11024420896500000000000000000000000000000000000000000000000000000000000000000000000000000000, 10977803496800000000000000000000000000000000000000000000000000000000000000000000000000000000, 10932341304100000000000000000000000000000000000000000000000000000000000000000000000000000000, 10887990705400000000000000000000000000000000000000000000000000000000000000000000000000000000, 10844709950300000000000000000000000000000000000000000000000000000000000000000000000000000000, 10802459122900000000000000000000000000000000000000000000000000000000000000000000000000000000, 10761200097700000000000000000000000000000000000000000000000000000000000000000000000000000000, 10720896482800000000000000000000000000000000000000000000000000000000000000000000000000000000, 10681513556000000000000000000000000000000000000000000000000000000000000000000000000000000000, 10643018196400000000000000000000000000000000000000000000000000000000000000000000000000000000, 10605378814900000000000000000000000000000000000000000000000000000000000000000000000000000000, 10568565282600000000000000000000000000000000000000000000000000000000000000000000000000000000, 10532548861400000000000000000000000000000000000000000000000000000000000000000000000000000000, 10497302135400000000000000000000000000000000000000000000000000000000000000000000000000000000, 10462798944200000000000000000000000000000000000000000000000000000000000000000000000000000000, 10429014319200000000000000000000000000000000000000000000000000000000000000000000000000000000, 10395924421600000000000000000000000000000000000000000000000000000000000000000000000000000000, 10363506484200000000000000000000000000000000000000000000000000000000000000000000000000000000, 10331738755000000000000000000000000000000000000000000000000000000000000000000000000000000000, 10300600444600000000000000000000000000000000000000000000000000000000000000000000000000000000, 10270071674900000000000000000000000000000000000000000000000000000000000000000000000000000000]),
  (862743286573000, [12355860683900000000000000000000000000000000000000000000000000000000000000000000000000000000, 12261264040500000000000000000000000000000000000000000000000000000000000000000000000000000000, 12171796330600000000000000000000000000000000000000000000000000000000000000000000000000000000, 12085522288000000000000000000000000000000000000000000000000000000000000000000000000000000000, 12002053066200000000000000000000000000000000000000000000000000000000000000000000000000000000, 11921302044200000000000000000000000000000000000000000000000000000000000000000000000000000000, 11843225563900000000000000000000000000000000000000000000000000000000000000000000000000000000, 11767765217700000000000000000000000000000000000000000000000000000000000000000000000000000000, 11694841136000000000000000000000000000000000000000000000000000000000000000000000000000000000, 11624357972800000000000000000000000000000000000000000000000000000000000000000000000000000000, 11556212096200000000000000000000000000000000000000000000000000000000000000000000000000000000, 11490297089300000000000000000000000000000000000000000000000000000000000000000000000000000000, 11426507365800000000000000000000000000000000000000000000000000000000000000000000000000000000, 11364740347600000000000000000000000000000000000000000000000000000000000000000000000000000000, 11304897676500000000000000000000000000000000000000000000000000000000000000000000000000000000, 11246885813200000000000000000000000000000000000000000000000000000000000000000000000000000000, 11190616259100000000000000000000000000000000000000000000000000000000000000000000000000000000, 11136005552600000000000000000000000000000000000000000000000000000000000000000000000000000000, 11082975134400000000000000000000000000000000000000000000000000000000000000000000000000000000, 11031451138300000000000000000000000000000000000000000000000000000000000000000000000000000000, 10981364145800000000000000000000000000000000000000000000000000000000000000000000000000000000, 10932648924800000000000000000000000000000000000000000000000000000000000000000000000000000000, 10885244166800000000000000000000000000000000000000000000000000000000000000000000000000000000, 10839092229800000000000000000000000000000000000000000000000000000000000000000000000000000000, 10794138891500000000000000000000000000000000000000000000000000000000000000000000000000000000, 10750333116900000000000000000000000000000000000000000000000000000000000000000000000000000000, 10707626838300000000000000000000000000000000000000000000000000000000000000000000000000000000, 10665974751300000000000000000000000000000000000000000000000000000000000000000000000000000000, 10625334124500000000000000000000000000000000000000000000000000000000000000000000000000000000, 10585664622400000000000000000000000000000000000000000000000000000000000000000000000000000000, 10546928142600000000000000000000000000000000000000000000000000000000000000000000000000000000, 10509088663800000000000000000000000000000000000000000000000000000000000000000000000000000000, 10472112106100000000000000000000000000000000000000000000000000000000000000000000000000000000, 10435966201800000000000000000000000000000000000000000000000000000000000000000000000000000000, 10400620375500000000000000000000000000000000000000000000000000000000000000000000000000000000, 10366045633800000000000000000000000000000000000000000000000000000000000000000000000000000000, 10332214462700000000000000000000000000000000000000000000000000000000000000000000000000000000, 10299100733300000000000000000000000000000000000000000000000000000000000000000000000000000000, 10266679614100000000000000000000000000000000000000000000000000000000000000000000000000000000, 10234927489800000000000000000000000000000000000000000000000000000000000000000000000000000000]),
  (864847294589000, [12472281077700000000000000000000000000000000000000000000000000000000000000000000000000000000, 12361180705300000000000000000000000000000000000000000000000000000000000000000000000000000000, 12257053889700000000000000000000000000000000000000000000000000000000000000000000000000000000, 12157762256900000000000000000000000000000000000000000000000000000000000000000000000000000000, 12062722724300000000000000000000000000000000000000000000000000000000000000000000000000000000, 11971663977900000000000000000000000000000000000000000000000000000000000000000000000000000000, 11884372474600000000000000000000000000000000000000000000000000000000000000000000000000000000, 11800640859800000000000000000000000000000000000000000000000000000000000000000000000000000000, 11720262487300000000000000000000000000000000000000000000000000000000000000000000000000000000, 11643035398700000000000000000000000000000000000000000000000000000000000000000000000000000000, 11568766451800000000000000000000000000000000000000000000000000000000000000000000000000000000, 11497273816000000000000000000000000000000000000000000000000000000000000000000000000000000000, 11428388012100000000000000000000000000000000000000000000000000000000000000000000000000000000, 11361951994300000000000000000000000000000000000000000000000000000000000000000000000000000000, 11297820689000000000000000000000000000000000000000000000000000000000000000000000000000000000, 11235860259700000000000000000000000000000000000000000000000000000000000000000000000000000000, 11175947263000000000000000000000000000000000000000000000000000000000000000000000000000000000, 11117967786200000000000000000000000000000000000000000000000000000000000000000000000000000000, 11061816615500000000000000000000000000000000000000000000000000000000000000000000000000000000, 11007396457200000000000000000000000000000000000000000000000000000000000000000000000000000000, 10954617222900000000000000000000000000000000000000000000000000000000000000000000000000000000, 10903395378400000000000000000000000000000000000000000000000000000000000000000000000000000000, 10853653356100000000000000000000000000000000000000000000000000000000000000000000000000000000, 10805319024800000000000000000000000000000000000000000000000000000000000000000000000000000000, 10758325212700000000000000000000000000000000000000000000000000000000000000000000000000000000, 10712609279400000000000000000000000000000000000000000000000000000000000000000000000000000000, 10668112729500000000000000000000000000000000000000000000000000000000000000000000000000000000, 10624780866000000000000000000000000000000000000000000000000000000000000000000000000000000000, 10582562477200000000000000000000000000000000000000000000000000000000000000000000000000000000, 10541409554600000000000000000000000000000000000000000000000000000000000000000000000000000000, 10501277037800000000000000000000000000000000000000000000000000000000000000000000000000000000, 10462122583700000000000000000000000000000000000000000000000000000000000000000000000000000000, 10423906357300000000000000000000000000000000000000000000000000000000000000000000000000000000, 10386590841700000000000000000000000000000000000000000000000000000000000000000000000000000000, 10350140665700000000000000000000000000000000000000000000000000000000000000000000000000000000, 10314522446600000000000000000000000000000000000000000000000000000000000000000000000000000000, 10279704646500000000000000000000000000000000000000000000000000000000000000000000000000000000, 10245657441900000000000000000000000000000000000000000000000000000000000000000000000000000000, 10212352603600000000000000000000000000000000000000000000000000000000000000000000000000000000, 10179763387400000000000000000000000000000000000000000000000000000000000000000000000000000000]),
  (866951302605000, [12524472691100000000000000000000000000000000000000000000000000000000000000000000000000000000, 12398970094100000000000000000000000000000000000000000000000000000000000000000000000000000000, 12282342527400000000000000000000000000000000000000000000000000000000000000000000000000000000, 12172190459600000000000000000000000000000000000000000000000000000000000000000000000000000000, 12067694943700000000000000000000000000000000000000000000000000000000000000000000000000000000, 11968373547100000000000000000000000000000000000000000000000000000000000000000000000000000000, 11873827382900000000000000000000000000000000000000000000000000000000000000000000000000000000, 11783692576900000000000000000000000000000000000000000000000000000000000000000000000000000000, 11697633481800000000000000000000000000000000000000000000000000000000000000000000000000000000, 11615342682600000000000000000000000000000000000000000000000000000000000000000000000000000000, 11536540679800000000000000000000000000000000000000000000000000000000000000000000000000000000, 11460974468000000000000000000000000000000000000000000000000000000000000000000000000000000000, 11388415424700000000000000000000000000000000000000000000000000000000000000000000000000000000, 11318656944500000000000000000000000000000000000000000000000000000000000000000000000000000000, 11251512093000000000000000000000000000000000000000000000000000000000000000000000000000000000, 11186811417400000000000000000000000000000000000000000000000000000000000000000000000000000000, 11124400970700000000000000000000000000000000000000000000000000000000000000000000000000000000, 11064140560300000000000000000000000000000000000000000000000000000000000000000000000000000000, 11005902209000000000000000000000000000000000000000000000000000000000000000000000000000000000, 10949568809900000000000000000000000000000000000000000000000000000000000000000000000000000000, 10895032951800000000000000000000000000000000000000000000000000000000000000000000000000000000, 10842195894100000000000000000000000000000000000000000000000000000000000000000000000000000000, 10790966669500000000000000000000000000000000000000000000000000000000000000000000000000000000, 10741261298200000000000000000000000000000000000000000000000000000000000000000000000000000000, 10693002097800000000000000000000000000000000000000000000000000000000000000000000000000000000, 10646117074600000000000000000000000000000000000000000000000000000000000000000000000000000000, 10600539387700000000000000000000000000000000000000000000000000000000000000000000000000000000, 10556206872500000000000000000000000000000000000000000000000000000000000000000000000000000000, 10513061619100000000000000000000000000000000000000000000000000000000000000000000000000000000, 10471049596200000000000000000000000000000000000000000000000000000000000000000000000000000000, 10430120315600000000000000000000000000000000000000000000000000000000000000000000000000000000, 10390226532200000000000000000000000000000000000000000000000000000000000000000000000000000000, 10351323974700000000000000000000000000000000000000000000000000000000000000000000000000000000, 10313371103200000000000000000000000000000000000000000000000000000000000000000000000000000000, 10276328891600000000000000000000000000000000000000000000000000000000000000000000000000000000, 10240160630800000000000000000000000000000000000000000000000000000000000000000000000000000000, 10204831750100000000000000000000000000000000000000000000000000000000000000000000000000000000, 10170309656000000000000000000000000000000000000000000000000000000000000000000000000000000000, 10136563585900000000000000000000000000000000000000000000000000000000000000000000000000000000, 10103564474200000000000000000000000000000000000000000000000000000000000000000000000000000000]),
  (869055310621000, [12498716894300000000000000000000000000000000000000000000000000000000000000000000000000000000, 12362798103400000000000000000000000000000000000000000000000000000000000000000000000000000000, 12237364581100000000000000000000000000000000000000000000000000000000000000000000000000000000, 12119772965200000000000000000000000000000000000000000000000000000000000000000000000000000000, 12008985298600000000000000000000000000000000000000000000000000000000000000000000000000000000, 11904326150700000000000000000000000000000000000000000000000000000000000000000000000000000000, 11805229908100000000000000000000000000000000000000000000000000000000000000000000000000000000, 11711194822200000000000000000000000000000000000000000000000000000000000000000000000000000000, 11621774324700000000000000000000000000000000000000000000000000000000000000000000000000000000, 11536572555300000000000000000000000000000000000000000000000000000000000000000000000000000000, 11455239306600000000000000000000000000000000000000000000000000000000000000000000000000000000, 11377464581700000000000000000000000000000000000000000000000000000000000000000000000000000000, 11302973352700000000000000000000000000000000000000000000000000000000000000000000000000000000, 11231520837600000000000000000000000000000000000000000000000000000000000000000000000000000000, 11162888389300000000000000000000000000000000000000000000000000000000000000000000000000000000, 11096879981500000000000000000000000000000000000000000000000000000000000000000000000000000000, 11033319226100000000000000000000000000000000000000000000000000000000000000000000000000000000, 10972046847700000000000000000000000000000000000000000000000000000000000000000000000000000000, 10912918542500000000000000000000000000000000000000000000000000000000000000000000000000000000, 10855803158700000000000000000000000000000000000000000000000000000000000000000000000000000000, 10800581143000000000000000000000000000000000000000000000000000000000000000000000000000000000, 10747143211100000000000000000000000000000000000000000000000000000000000000000000000000000000, 10695389202800000000000000000000000000000000000000000000000000000000000000000000000000000000, 10645227093600000000000000000000000000000000000000000000000000000000000000000000000000000000, 10596572136900000000000000000000000000000000000000000000000000000000000000000000000000000000, 10549346116700000000000000000000000000000000000000000000000000000000000000000000000000000000, 10503476694500000000000000000000000000000000000000000000000000000000000000000000000000000000, 10458896836100000000000000000000000000000000000000000000000000000000000000000000000000000000, 10415544306400000000000000000000000000000000000000000000000000000000000000000000000000000000, 10373361223800000000000000000000000000000000000000000000000000000000000000000000000000000000, 10332293664300000000000000000000000000000000000000000000000000000000000000000000000000000000, 10292291310600000000000000000000000000000000000000000000000000000000000000000000000000000000, 10253307138600000000000000000000000000000000000000000000000000000000000000000000000000000000, 10215297137300000000000000000000000000000000000000000000000000000000000000000000000000000000, 10178220057800000000000000000000000000000000000000000000000000000000000000000000000000000000, 10142037188300000000000000000000000000000000000000000000000000000000000000000000000000000000, 10106712150700000000000000000000000000000000000000000000000000000000000000000000000000000000, 10072210717800000000000000000000000000000000000000000000000000000000000000000000000000000000, 10038500647800000000000000000000000000000000000000000000000000000000000000000000000000000000, 10005551534100000000000000000000000000000000000000000000000000000000000000000000000000000000]),
  (871159318637000, [12383116475500000000000000000000000000000000000000000000000000000000000000000000000000000000, 12242657495000000000000000000000000000000000000000000000000000000000000000000000000000000000, 12113593062800000000000000000000000000000000000000000000000000000000000000000000000000000000, 11993161356000000000000000000000000000000000000000000000000000000000000000000000000000000000, 11880198149000000000000000000000000000000000000000000000000000000000000000000000000000000000, 11773907002700000000000000000000000000000000000000000000000000000000000000000000000000000000, 11673613136800000000000000000000000000000000000000000000000000000000000000000000000000000000, 11578724182500000000000000000000000000000000000000000000000000000000000000000000000000000000, 11488722058400000000000000000000000000000000000000000000000000000000000000000000000000000000, 11403155600900000000000000000000000000000000000000000000000000000000000000000000000000000000, 11321631916900000000000000000000000000000000000000000000000000000000000000000000000000000000, 11243807820900000000000000000000000000000000000000000000000000000000000000000000000000000000, 11169382192000000000000000000000000000000000000000000000000000000000000000000000000000000000, 11098089486400000000000000000000000000000000000000000000000000000000000000000000000000000000, 11029694348500000000000000000000000000000000000000000000000000000000000000000000000000000000, 10963987166800000000000000000000000000000000000000000000000000000000000000000000000000000000, 10900780409300000000000000000000000000000000000000000000000000000000000000000000000000000000, 10839905589100000000000000000000000000000000000000000000000000000000000000000000000000000000, 10781210738800000000000000000000000000000000000000000000000000000000000000000000000000000000, 10724558295600000000000000000000000000000000000000000000000000000000000000000000000000000000, 10669823318700000000000000000000000000000000000000000000000000000000000000000000000000000000, 10616891978100000000000000000000000000000000000000000000000000000000000000000000000000000000, 10565660266800000000000000000000000000000000000000000000000000000000000000000000000000000000, 10516032895500000000000000000000000000000000000000000000000000000000000000000000000000000000, 10467922341200000000000000000000000000000000000000000000000000000000000000000000000000000000, 10421248022700000000000000000000000000000000000000000000000000000000000000000000000000000000, 10375935584600000000000000000000000000000000000000000000000000000000000000000000000000000000, 10331916270800000000000000000000000000000000000000000000000000000000000000000000000000000000, 10289126376000000000000000000000000000000000000000000000000000000000000000000000000000000000, 10247506763200000000000000000000000000000000000000000000000000000000000000000000000000000000, 10207002437000000000000000000000000000000000000000000000000000000000000000000000000000000000, 10167562166600000000000000000000000000000000000000000000000000000000000000000000000000000000, 10129138149800000000000000000000000000000000000000000000000000000000000000000000000000000000, 10091685714400000000000000000000000000000000000000000000000000000000000000000000000000000000, 10055163051400000000000000000000000000000000000000000000000000000000000000000000000000000000, 10019530975500000000000000000000000000000000000000000000000000000000000000000000000000000000, 9984752710720000000000000000000000000000000000000000000000000000000000000000000000000000000, 9950793696930000000000000000000000000000000000000000000000000000000000000000000000000000000, 9917621415680000000000000000000000000000000000000000000000000000000000000000000000000000000, 9885205232700000000000000000000000000000000000000000000000000000000000000000000000000000000]),
  (873263326653000, [12169047645300000000000000000000000000000000000000000000000000000000000000000000000000000000, 12031501787900000000000000000000000000000000000000000000000000000000000000000000000000000000, 11905173183800000000000000000000000000000000000000000000000000000000000000000000000000000000, 11787421596100000000000000000000000000000000000000000000000000000000000000000000000000000000, 11677124741700000000000000000000000000000000000000000000000000000000000000000000000000000000, 11573488352700000000000000000000000000000000000000000000000000000000000000000000000000000000, 11475821720800000000000000000000000000000000000000000000000000000000000000000000000000000000, 11383514500000000000000000000000000000000000000000000000000000000000000000000000000000000000, 11296034898700000000000000000000000000000000000000000000000000000000000000000000000000000000, 11212923155000000000000000000000000000000000000000000000000000000000000000000000000000000000, 11133781884900000000000000000000000000000000000000000000000000000000000000000000000000000000, 11058266269700000000000000000000000000000000000000000000000000000000000000000000000000000000, 10986075403800000000000000000000000000000000000000000000000000000000000000000000000000000000, 10916945097800000000000000000000000000000000000000000000000000000000000000000000000000000000, 10850642021400000000000000000000000000000000000000000000000000000000000000000000000000000000, 10786958959400000000000000000000000000000000000000000000000000000000000000000000000000000000, 10725710957900000000000000000000000000000000000000000000000000000000000000000000000000000000, 10666732172000000000000000000000000000000000000000000000000000000000000000000000000000000000, 10609873267700000000000000000000000000000000000000000000000000000000000000000000000000000000, 10554999262200000000000000000000000000000000000000000000000000000000000000000000000000000000, 10501987716000000000000000000000000000000000000000000000000000000000000000000000000000000000, 10450727206700000000000000000000000000000000000000000000000000000000000000000000000000000000, 10401116033500000000000000000000000000000000000000000000000000000000000000000000000000000000, 10353061109400000000000000000000000000000000000000000000000000000000000000000000000000000000, 10306477010100000000000000000000000000000000000000000000000000000000000000000000000000000000, 10261285151300000000000000000000000000000000000000000000000000000000000000000000000000000000, 10217413075300000000000000000000000000000000000000000000000000000000000000000000000000000000, 10174793829000000000000000000000000000000000000000000000000000000000000000000000000000000000, 10133365419100000000000000000000000000000000000000000000000000000000000000000000000000000000, 10093070333200000000000000000000000000000000000000000000000000000000000000000000000000000000, 10053855118600000000000000000000000000000000000000000000000000000000000000000000000000000000, 10015670008100000000000000000000000000000000000000000000000000000000000000000000000000000000, 9978468589140000000000000000000000000000000000000000000000000000000000000000000000000000000, 9942207508840000000000000000000000000000000000000000000000000000000000000000000000000000000, 9906846210600000000000000000000000000000000000000000000000000000000000000000000000000000000, 9872346698710000000000000000000000000000000000000000000000000000000000000000000000000000000, 9838673327080000000000000000000000000000000000000000000000000000000000000000000000000000000, 9805792609250000000000000000000000000000000000000000000000000000000000000000000000000000000, 9773673047270000000000000000000000000000000000000000000000000000000000000000000000000000000, 9742284977120000000000000000000000000000000000000000000000000000000000000000000000000000000]),
  (875367334669000, [11852487377400000000000000000000000000000000000000000000000000000000000000000000000000000000, 11726240541400000000000000000000000000000000000000000000000000000000000000000000000000000000, 11609689303300000000000000000000000000000000000000000000000000000000000000000000000000000000, 11500638775400000000000000000000000000000000000000000000000000000000000000000000000000000000, 11398229366400000000000000000000000000000000000000000000000000000000000000000000000000000000, 11301826732900000000000000000000000000000000000000000000000000000000000000000000000000000000, 11210841019400000000000000000000000000000000000000000000000000000000000000000000000000000000, 11124732875200000000000000000000000000000000000000000000000000000000000000000000000000000000, 11043026108300000000000000000000000000000000000000000000000000000000000000000000000000000000, 10965307309200000000000000000000000000000000000000000000000000000000000000000000000000000000, 10891218813300000000000000000000000000000000000000000000000000000000000000000000000000000000, 10820450190400000000000000000000000000000000000000000000000000000000000000000000000000000000, 10752730429400000000000000000000000000000000000000000000000000000000000000000000000000000000, 10687821394400000000000000000000000000000000000000000000000000000000000000000000000000000000, 10625512520800000000000000000000000000000000000000000000000000000000000000000000000000000000, 10565616548800000000000000000000000000000000000000000000000000000000000000000000000000000000, 10507966079200000000000000000000000000000000000000000000000000000000000000000000000000000000, 10452410769800000000000000000000000000000000000000000000000000000000000000000000000000000000, 10398815032800000000000000000000000000000000000000000000000000000000000000000000000000000000, 10347056123100000000000000000000000000000000000000000000000000000000000000000000000000000000, 10297022539100000000000000000000000000000000000000000000000000000000000000000000000000000000, 10248612672400000000000000000000000000000000000000000000000000000000000000000000000000000000, 10201733659200000000000000000000000000000000000000000000000000000000000000000000000000000000, 10156300398200000000000000000000000000000000000000000000000000000000000000000000000000000000, 10112234704300000000000000000000000000000000000000000000000000000000000000000000000000000000, 10069464576300000000000000000000000000000000000000000000000000000000000000000000000000000000, 10027923559700000000000000000000000000000000000000000000000000000000000000000000000000000000, 9987550190580000000000000000000000000000000000000000000000000000000000000000000000000000000, 9948287507580000000000000000000000000000000000000000000000000000000000000000000000000000000, 9910082622060000000000000000000000000000000000000000000000000000000000000000000000000000000, 9872886338790000000000000000000000000000000000000000000000000000000000000000000000000000000, 9836652819520000000000000000000000000000000000000000000000000000000000000000000000000000000, 9801339284180000000000000000000000000000000000000000000000000000000000000000000000000000000, 9766905744390000000000000000000000000000000000000000000000000000000000000000000000000000000, 9733314765410000000000000000000000000000000000000000000000000000000000000000000000000000000, 9700531252890000000000000000000000000000000000000000000000000000000000000000000000000000000, 9668522261310000000000000000000000000000000000000000000000000000000000000000000000000000000, 9637256821630000000000000000000000000000000000000000000000000000000000000000000000000000000, 9606705785840000000000000000000000000000000000000000000000000000000000000000000000000000000, 9576841686440000000000000000000000000000000000000000000000000000000000000000000000000000000]),
  (877471342685000, [11434956811000000000000000000000000000000000000000000000000000000000000000000000000000000000, 11328420487700000000000000000000000000000000000000000000000000000000000000000000000000000000, 11228673774500000000000000000000000000000000000000000000000000000000000000000000000000000000, 11134308030200000000000000000000000000000000000000000000000000000000000000000000000000000000, 11044956648500000000000000000000000000000000000000000000000000000000000000000000000000000000, 10960309163800000000000000000000000000000000000000000000000000000000000000000000000000000000, 10879997554900000000000000000000000000000000000000000000000000000000000000000000000000000000, 10803645124000000000000000000000000000000000000000000000000000000000000000000000000000000000, 10730902187100000000000000000000000000000000000000000000000000000000000000000000000000000000, 10661457521700000000000000000000000000000000000000000000000000000000000000000000000000000000, 10595037829600000000000000000000000000000000000000000000000000000000000000000000000000000000, 10531403258900000000000000000000000000000000000000000000000000000000000000000000000000000000, 10470342383800000000000000000000000000000000000000000000000000000000000000000000000000000000, 10411667743800000000000000000000000000000000000000000000000000000000000000000000000000000000, 10355212156700000000000000000000000000000000000000000000000000000000000000000000000000000000, 10300825730500000000000000000000000000000000000000000000000000000000000000000000000000000000, 10248373442900000000000000000000000000000000000000000000000000000000000000000000000000000000, 10197733161300000000000000000000000000000000000000000000000000000000000000000000000000000000, 10148794008100000000000000000000000000000000000000000000000000000000000000000000000000000000, 10101454992300000000000000000000000000000000000000000000000000000000000000000000000000000000, 10055623854600000000000000000000000000000000000000000000000000000000000000000000000000000000, 10011216083100000000000000000000000000000000000000000000000000000000000000000000000000000000, 9968154068040000000000000000000000000000000000000000000000000000000000000000000000000000000, 9926366370520000000000000000000000000000000000000000000000000000000000000000000000000000000, 9885787087290000000000000000000000000000000000000000000000000000000000000000000000000000000, 9846355295460000000000000000000000000000000000000000000000000000000000000000000000000000000, 9808014565300000000000000000000000000000000000000000000000000000000000000000000000000000000, 9770712531040000000000000000000000000000000000000000000000000000000000000000000000000000000, 9734400511520000000000000000000000000000000000000000000000000000000000000000000000000000000, 9699033173780000000000000000000000000000000000000000000000000000000000000000000000000000000, 9664568233910000000000000000000000000000000000000000000000000000000000000000000000000000000, 9630966190300000000000000000000000000000000000000000000000000000000000000000000000000000000, 9598190085120000000000000000000000000000000000000000000000000000000000000000000000000000000, 9566205290740000000000000000000000000000000000000000000000000000000000000000000000000000000, 9534979317780000000000000000000000000000000000000000000000000000000000000000000000000000000, 9504481642420000000000000000000000000000000000000000000000000000000000000000000000000000000, 9474683550720000000000000000000000000000000000000000000000000000000000000000000000000000000, 9445557997860000000000000000000000000000000000000000000000000000000000000000000000000000000, 9417079480800000000000000000000000000000000000000000000000000000000000000000000000000000000, 9389223922790000000000000000000000000000000000000000000000000000000000000000000000000000000]),
  (879575350701000, [10923857734600000000000000000000000000000000000000000000000000000000000000000000000000000000, 10844448875000000000000000000000000000000000000000000000000000000000000000000000000000000000, 10767760613300000000000000000000000000000000000000000000000000000000000000000000000000000000, 10693443305500000000000000000000000000000000000000000000000000000000000000000000000000000000, 10621810265400000000000000000000000000000000000000000000000000000000000000000000000000000000, 10553011161200000000000000000000000000000000000000000000000000000000000000000000000000000000, 10487002376300000000000000000000000000000000000000000000000000000000000000000000000000000000, 10423648555200000000000000000000000000000000000000000000000000000000000000000000000000000000, 10362787851300000000000000000000000000000000000000000000000000000000000000000000000000000000, 10304259756600000000000000000000000000000000000000000000000000000000000000000000000000000000, 10247914291100000000000000000000000000000000000000000000000000000000000000000000000000000000, 10193613863300000000000000000000000000000000000000000000000000000000000000000000000000000000, 10141232711100000000000000000000000000000000000000000000000000000000000000000000000000000000, 10090655746900000000000000000000000000000000000000000000000000000000000000000000000000000000, 10041777396600000000000000000000000000000000000000000000000000000000000000000000000000000000, 9994500577920000000000000000000000000000000000000000000000000000000000000000000000000000000, 9948735829350000000000000000000000000000000000000000000000000000000000000000000000000000000, 9904400563830000000000000000000000000000000000000000000000000000000000000000000000000000000, 9861418421260000000000000000000000000000000000000000000000000000000000000000000000000000000, 9819718699020000000000000000000000000000000000000000000000000000000000000000000000000000000, 9779235845890000000000000000000000000000000000000000000000000000000000000000000000000000000, 9739909008810000000000000000000000000000000000000000000000000000000000000000000000000000000, 9701681625060000000000000000000000000000000000000000000000000000000000000000000000000000000, 9664501054130000000000000000000000000000000000000000000000000000000000000000000000000000000, 9628318244810000000000000000000000000000000000000000000000000000000000000000000000000000000, 9593087433740000000000000000000000000000000000000000000000000000000000000000000000000000000, 9558765872350000000000000000000000000000000000000000000000000000000000000000000000000000000, 9525313579150000000000000000000000000000000000000000000000000000000000000000000000000000000, 9492693115190000000000000000000000000000000000000000000000000000000000000000000000000000000, 9460869380130000000000000000000000000000000000000000000000000000000000000000000000000000000, 9429809427140000000000000000000000000000000000000000000000000000000000000000000000000000000, 9399482294620000000000000000000000000000000000000000000000000000000000000000000000000000000, 9369858853230000000000000000000000000000000000000000000000000000000000000000000000000000000, 9340911666690000000000000000000000000000000000000000000000000000000000000000000000000000000, 9312614864900000000000000000000000000000000000000000000000000000000000000000000000000000000, 9284944028400000000000000000000000000000000000000000000000000000000000000000000000000000000, 9257876082840000000000000000000000000000000000000000000000000000000000000000000000000000000, 9231389202640000000000000000000000000000000000000000000000000000000000000000000000000000000, 9205462722890000000000000000000000000000000000000000000000000000000000000000000000000000000, 9180077058680000000000000000000000000000000000000000000000000000000000000000000000000000000]),
  (881679358717000, [10332082449400000000000000000000000000000000000000000000000000000000000000000000000000000000, 10285285349500000000000000000000000000000000000000000000000000000000000000000000000000000000, 10236436327700000000000000000000000000000000000000000000000000000000000000000000000000000000, 10186371632700000000000000000000000000000000000000000000000000000000000000000000000000000000, 10136180329800000000000000000000000000000000000000000000000000000000000000000000000000000000, 10086550031900000000000000000000000000000000000000000000000000000000000000000000000000000000, 10037825045700000000000000000000000000000000000000000000000000000000000000000000000000000000, 9990162735320000000000000000000000000000000000000000000000000000000000000000000000000000000, 9943630578770000000000000000000000000000000000000000000000000000000000000000000000000000000, 9898252473890000000000000000000000000000000000000000000000000000000000000000000000000000000, 9854029374340000000000000000000000000000000000000000000000000000000000000000000000000000000, 9810948816460000000000000000000000000000000000000000000000000000000000000000000000000000000, 9768989827470000000000000000000000000000000000000000000000000000000000000000000000000000000, 9728125836740000000000000000000000000000000000000000000000000000000000000000000000000000000, 9688326618710000000000000000000000000000000000000000000000000000000000000000000000000000000, 9649559683570000000000000000000000000000000000000000000000000000000000000000000000000000000, 9611791302620000000000000000000000000000000000000000000000000000000000000000000000000000000, 9574987268140000000000000000000000000000000000000000000000000000000000000000000000000000000, 9539113452200000000000000000000000000000000000000000000000000000000000000000000000000000000, 9504136210670000000000000000000000000000000000000000000000000000000000000000000000000000000, 9470022668730000000000000000000000000000000000000000000000000000000000000000000000000000000, 9436740915640000000000000000000000000000000000000000000000000000000000000000000000000000000, 9404260131150000000000000000000000000000000000000000000000000000000000000000000000000000000, 9372550660530000000000000000000000000000000000000000000000000000000000000000000000000000000, 9341584051510000000000000000000000000000000000000000000000000000000000000000000000000000000, 9311333063540000000000000000000000000000000000000000000000000000000000000000000000000000000, 9281771656780000000000000000000000000000000000000000000000000000000000000000000000000000000, 9252874967140000000000000000000000000000000000000000000000000000000000000000000000000000000, 9224619271420000000000000000000000000000000000000000000000000000000000000000000000000000000, 9196981946190000000000000000000000000000000000000000000000000000000000000000000000000000000, 9169941422680000000000000000000000000000000000000000000000000000000000000000000000000000000, 9143477139690000000000000000000000000000000000000000000000000000000000000000000000000000000, 9117569495600000000000000000000000000000000000000000000000000000000000000000000000000000000, 9092199800810000000000000000000000000000000000000000000000000000000000000000000000000000000, 9067350230920000000000000000000000000000000000000000000000000000000000000000000000000000000, 9043003781370000000000000000000000000000000000000000000000000000000000000000000000000000000, 9019144223770000000000000000000000000000000000000000000000000000000000000000000000000000000, 8995756064090000000000000000000000000000000000000000000000000000000000000000000000000000000, 8972824502870000000000000000000000000000000000000000000000000000000000000000000000000000000, 8950335397490000000000000000000000000000000000000000000000000000000000000000000000000000000]),
  (883783366733000, [9676923016500000000000000000000000000000000000000000000000000000000000000000000000000000000, 9665622337330000000000000000000000000000000000000000000000000000000000000000000000000000000, 9647403295860000000000000000000000000000000000000000000000000000000000000000000000000000000, 9624224994450000000000000000000000000000000000000000000000000000000000000000000000000000000, 9597929073660000000000000000000000000000000000000000000000000000000000000000000000000000000, 9569741253990000000000000000000000000000000000000000000000000000000000000000000000000000000, 9540404628670000000000000000000000000000000000000000000000000000000000000000000000000000000, 9510383516800000000000000000000000000000000000000000000000000000000000000000000000000000000, 9479989125730000000000000000000000000000000000000000000000000000000000000000000000000000000, 9449443181320000000000000000000000000000000000000000000000000000000000000000000000000000000, 9418909699370000000000000000000000000000000000000000000000000000000000000000000000000000000, 9388512177670000000000000000000000000000000000000000000000000000000000000000000000000000000, 9358344072130000000000000000000000000000000000000000000000000000000000000000000000000000000, 9328475900160000000000000000000000000000000000000000000000000000000000000000000000000000000, 9298960412520000000000000000000000000000000000000000000000000000000000000000000000000000000, 9269836509610000000000000000000000000000000000000000000000000000000000000000000000000000000, 9241132264370000000000000000000000000000000000000000000000000000000000000000000000000000000, 9212867276950000000000000000000000000000000000000000000000000000000000000000000000000000000, 9185054516760000000000000000000000000000000000000000000000000000000000000000000000000000000, 9157701767350000000000000000000000000000000000000000000000000000000000000000000000000000000, 9130812761760000000000000000000000000000000000000000000000000000000000000000000000000000000, 9104388076390000000000000000000000000000000000000000000000000000000000000000000000000000000, 9078425835890000000000000000000000000000000000000000000000000000000000000000000000000000000, 9052922270140000000000000000000000000000000000000000000000000000000000000000000000000000000, 9027872154960000000000000000000000000000000000000000000000000000000000000000000000000000000, 9003269161560000000000000000000000000000000000000000000000000000000000000000000000000000000, 8979106133850000000000000000000000000000000000000000000000000000000000000000000000000000000, 8955375308760000000000000000000000000000000000000000000000000000000000000000000000000000000, 8932068491450000000000000000000000000000000000000000000000000000000000000000000000000000000, 8909177194500000000000000000000000000000000000000000000000000000000000000000000000000000000, 8886692748570000000000000000000000000000000000000000000000000000000000000000000000000000000, 8864606390120000000000000000000000000000000000000000000000000000000000000000000000000000000, 8842909330880000000000000000000000000000000000000000000000000000000000000000000000000000000, 8821592812600000000000000000000000000000000000000000000000000000000000000000000000000000000, 8800648149960000000000000000000000000000000000000000000000000000000000000000000000000000000, 8780066764060000000000000000000000000000000000000000000000000000000000000000000000000000000, 8759840208150000000000000000000000000000000000000000000000000000000000000000000000000000000, 8739960187270000000000000000000000000000000000000000000000000000000000000000000000000000000, 8720418572820000000000000000000000000000000000000000000000000000000000000000000000000000000, 8701207413180000000000000000000000000000000000000000000000000000000000000000000000000000000]),
  (885887374749000, [8978452826380000000000000000000000000000000000000000000000000000000000000000000000000000000, 9002667771740000000000000000000000000000000000000000000000000000000000000000000000000000000, 9015633889010000000000000000000000000000000000000000000000000000000000000000000000000000000, 9020185880100000000000000000000000000000000000000000000000000000000000000000000000000000000, 9018776480410000000000000000000000000000000000000000000000000000000000000000000000000000000, 9013089697710000000000000000000000000000000000000000000000000000000000000000000000000000000, 9004222435170000000000000000000000000000000000000000000000000000000000000000000000000000000, 8992919967800000000000000000000000000000000000000000000000000000000000000000000000000000000, 8979721841910000000000000000000000000000000000000000000000000000000000000000000000000000000, 8965038472430000000000000000000000000000000000000000000000000000000000000000000000000000000, 8949191668120000000000000000000000000000000000000000000000000000000000000000000000000000000, 8932438098620000000000000000000000000000000000000000000000000000000000000000000000000000000, 8914984478100000000000000000000000000000000000000000000000000000000000000000000000000000000, 8896998304460000000000000000000000000000000000000000000000000000000000000000000000000000000, 8878615890530000000000000000000000000000000000000000000000000000000000000000000000000000000, 8859948555500000000000000000000000000000000000000000000000000000000000000000000000000000000, 8841087474550000000000000000000000000000000000000000000000000000000000000000000000000000000, 8822107510750000000000000000000000000000000000000000000000000000000000000000000000000000000, 8803070260320000000000000000000000000000000000000000000000000000000000000000000000000000000, 8784026483560000000000000000000000000000000000000000000000000000000000000000000000000000000, 8765018053570000000000000000000000000000000000000000000000000000000000000000000000000000000, 8746079525080000000000000000000000000000000000000000000000000000000000000000000000000000000, 8727239402790000000000000000000000000000000000000000000000000000000000000000000000000000000, 8708521171260000000000000000000000000000000000000000000000000000000000000000000000000000000, 8689944134830000000000000000000000000000000000000000000000000000000000000000000000000000000, 8671524105620000000000000000000000000000000000000000000000000000000000000000000000000000000, 8653273969500000000000000000000000000000000000000000000000000000000000000000000000000000000, 8635204153510000000000000000000000000000000000000000000000000000000000000000000000000000000, 8617323013630000000000000000000000000000000000000000000000000000000000000000000000000000000, 8599637157540000000000000000000000000000000000000000000000000000000000000000000000000000000, 8582151714330000000000000000000000000000000000000000000000000000000000000000000000000000000, 8564870560710000000000000000000000000000000000000000000000000000000000000000000000000000000, 8547796511260000000000000000000000000000000000000000000000000000000000000000000000000000000, 8530931479100000000000000000000000000000000000000000000000000000000000000000000000000000000, 8514276611820000000000000000000000000000000000000000000000000000000000000000000000000000000, 8497832406880000000000000000000000000000000000000000000000000000000000000000000000000000000, 8481598809840000000000000000000000000000000000000000000000000000000000000000000000000000000, 8465575298150000000000000000000000000000000000000000000000000000000000000000000000000000000, 8449760952760000000000000000000000000000000000000000000000000000000000000000000000000000000, 8434154519560000000000000000000000000000000000000000000000000000000000000000000000000000000]),
  (887991382766000, [8257658552360000000000000000000000000000000000000000000000000000000000000000000000000000000, 8314713402150000000000000000000000000000000000000000000000000000000000000000000000000000000, 8357241665710000000000000000000000000000000000000000000000000000000000000000000000000000000, 8388577292670000000000000000000000000000000000000000000000000000000000000000000000000000000, 8411553233440000000000000000000000000000000000000000000000000000000000000000000000000000000, 8428167014580000000000000000000000000000000000000000000000000000000000000000000000000000000, 8439776465920000000000000000000000000000000000000000000000000000000000000000000000000000000, 8447345868450000000000000000000000000000000000000000000000000000000000000000000000000000000, 8451600266340000000000000000000000000000000000000000000000000000000000000000000000000000000, 8453108334480000000000000000000000000000000000000000000000000000000000000000000000000000000, 8452327666210000000000000000000000000000000000000000000000000000000000000000000000000000000, 8449631991990000000000000000000000000000000000000000000000000000000000000000000000000000000, 8445329396030000000000000000000000000000000000000000000000000000000000000000000000000000000, 8439675540020000000000000000000000000000000000000000000000000000000000000000000000000000000, 8432883742090000000000000000000000000000000000000000000000000000000000000000000000000000000, 8425132861370000000000000000000000000000000000000000000000000000000000000000000000000000000, 8416573550910000000000000000000000000000000000000000000000000000000000000000000000000000000, 8407333256190000000000000000000000000000000000000000000000000000000000000000000000000000000, 8397520232920000000000000000000000000000000000000000000000000000000000000000000000000000000, 8387226792190000000000000000000000000000000000000000000000000000000000000000000000000000000, 8376531933280000000000000000000000000000000000000000000000000000000000000000000000000000000, 8365503489780000000000000000000000000000000000000000000000000000000000000000000000000000000, 8354199887130000000000000000000000000000000000000000000000000000000000000000000000000000000, 8342671588770000000000000000000000000000000000000000000000000000000000000000000000000000000, 8330962291810000000000000000000000000000000000000000000000000000000000000000000000000000000, 8319109920150000000000000000000000000000000000000000000000000000000000000000000000000000000, 8307147453250000000000000000000000000000000000000000000000000000000000000000000000000000000, 8295103620710000000000000000000000000000000000000000000000000000000000000000000000000000000, 8283003487020000000000000000000000000000000000000000000000000000000000000000000000000000000, 8270868945790000000000000000000000000000000000000000000000000000000000000000000000000000000, 8258719139170000000000000000000000000000000000000000000000000000000000000000000000000000000, 8246570815170000000000000000000000000000000000000000000000000000000000000000000000000000000, 8234438633060000000000000000000000000000000000000000000000000000000000000000000000000000000, 8222335425460000000000000000000000000000000000000000000000000000000000000000000000000000000, 8210272423860000000000000000000000000000000000000000000000000000000000000000000000000000000, 8198259453350000000000000000000000000000000000000000000000000000000000000000000000000000000, 8186305101230000000000000000000000000000000000000000000000000000000000000000000000000000000, 8174416863440000000000000000000000000000000000000000000000000000000000000000000000000000000, 8162601272090000000000000000000000000000000000000000000000000000000000000000000000000000000, 8150864006730000000000000000000000000000000000000000000000000000000000000000000000000000000]),
  (890095390782000, [7534633998630000000000000000000000000000000000000000000000000000000000000000000000000000000, 7619699540610000000000000000000000000000000000000000000000000000000000000000000000000000000, 7688318817330000000000000000000000000000000000000000000000000000000000000000000000000000000, 7743906382980000000000000000000000000000000000000000000000000000000000000000000000000000000, 7789403137560000000000000000000000000000000000000000000000000000000000000000000000000000000, 7826938462770000000000000000000000000000000000000000000000000000000000000000000000000000000, 7858007236610000000000000000000000000000000000000000000000000000000000000000000000000000000, 7883705420700000000000000000000000000000000000000000000000000000000000000000000000000000000, 7904880102220000000000000000000000000000000000000000000000000000000000000000000000000000000, 7922211037400000000000000000000000000000000000000000000000000000000000000000000000000000000, 7936255934930000000000000000000000000000000000000000000000000000000000000000000000000000000, 7947478274220000000000000000000000000000000000000000000000000000000000000000000000000000000, 7956266381690000000000000000000000000000000000000000000000000000000000000000000000000000000, 7962947595670000000000000000000000000000000000000000000000000000000000000000000000000000000, 7967799274380000000000000000000000000000000000000000000000000000000000000000000000000000000, 7971057550060000000000000000000000000000000000000000000000000000000000000000000000000000000, 7972924372080000000000000000000000000000000000000000000000000000000000000000000000000000000, 7973573210650000000000000000000000000000000000000000000000000000000000000000000000000000000, 7973153697450000000000000000000000000000000000000000000000000000000000000000000000000000000, 7971795417200000000000000000000000000000000000000000000000000000000000000000000000000000000, 7969611018360000000000000000000000000000000000000000000000000000000000000000000000000000000, 7966698776460000000000000000000000000000000000000000000000000000000000000000000000000000000, 7963144715680000000000000000000000000000000000000000000000000000000000000000000000000000000, 7959024372950000000000000000000000000000000000000000000000000000000000000000000000000000000, 7954404271380000000000000000000000000000000000000000000000000000000000000000000000000000000, 7949343156560000000000000000000000000000000000000000000000000000000000000000000000000000000, 7943893038350000000000000000000000000000000000000000000000000000000000000000000000000000000, 7938100072680000000000000000000000000000000000000000000000000000000000000000000000000000000, 7932005310900000000000000000000000000000000000000000000000000000000000000000000000000000000, 7925645339120000000000000000000000000000000000000000000000000000000000000000000000000000000, 7919052825850000000000000000000000000000000000000000000000000000000000000000000000000000000, 7912256992680000000000000000000000000000000000000000000000000000000000000000000000000000000, 7905284020380000000000000000000000000000000000000000000000000000000000000000000000000000000, 7898157400250000000000000000000000000000000000000000000000000000000000000000000000000000000, 7890898239300000000000000000000000000000000000000000000000000000000000000000000000000000000, 7883525525910000000000000000000000000000000000000000000000000000000000000000000000000000000, 7876056361870000000000000000000000000000000000000000000000000000000000000000000000000000000, 7868506165650000000000000000000000000000000000000000000000000000000000000000000000000000000, 7860888850830000000000000000000000000000000000000000000000000000000000000000000000000000000, 7853216983150000000000000000000000000000000000000000000000000000000000000000000000000000000]),
  (892199398798000, [6827103458640000000000000000000000000000000000000000000000000000000000000000000000000000000, 6933968772030000000000000000000000000000000000000000000000000000000000000000000000000000000, 7023882873930000000000000000000000000000000000000000000000000000000000000000000000000000000, 7099970121310000000000000000000000000000000000000000000000000000000000000000000000000000000, 7165018789720000000000000000000000000000000000000000000000000000000000000000000000000000000, 7221105040380000000000000000000000000000000000000000000000000000000000000000000000000000000, 7269727575020000000000000000000000000000000000000000000000000000000000000000000000000000000, 7312015738520000000000000000000000000000000000000000000000000000000000000000000000000000000, 7348864439360000000000000000000000000000000000000000000000000000000000000000000000000000000, 7381007475310000000000000000000000000000000000000000000000000000000000000000000000000000000, 7409058251790000000000000000000000000000000000000000000000000000000000000000000000000000000, 7433535041360000000000000000000000000000000000000000000000000000000000000000000000000000000, 7454878655230000000000000000000000000000000000000000000000000000000000000000000000000000000, 7473465887950000000000000000000000000000000000000000000000000000000000000000000000000000000, 7489620215740000000000000000000000000000000000000000000000000000000000000000000000000000000, 7503620486680000000000000000000000000000000000000000000000000000000000000000000000000000000, 7515708043640000000000000000000000000000000000000000000000000000000000000000000000000000000, 7526092588420000000000000000000000000000000000000000000000000000000000000000000000000000000, 7534957024130000000000000000000000000000000000000000000000000000000000000000000000000000000, 7542461465410000000000000000000000000000000000000000000000000000000000000000000000000000000, 7548746570030000000000000000000000000000000000000000000000000000000000000000000000000000000, 7553936316510000000000000000000000000000000000000000000000000000000000000000000000000000000, 7558140328600000000000000000000000000000000000000000000000000000000000000000000000000000000, 7561455828160000000000000000000000000000000000000000000000000000000000000000000000000000000, 7563969282660000000000000000000000000000000000000000000000000000000000000000000000000000000, 7565757800420000000000000000000000000000000000000000000000000000000000000000000000000000000, 7566890317090000000000000000000000000000000000000000000000000000000000000000000000000000000, 7567428608420000000000000000000000000000000000000000000000000000000000000000000000000000000, 7567428158100000000000000000000000000000000000000000000000000000000000000000000000000000000, 7566938904000000000000000000000000000000000000000000000000000000000000000000000000000000000, 7566005882220000000000000000000000000000000000000000000000000000000000000000000000000000000, 7564669784670000000000000000000000000000000000000000000000000000000000000000000000000000000, 7562967443540000000000000000000000000000000000000000000000000000000000000000000000000000000, 7560932253300000000000000000000000000000000000000000000000000000000000000000000000000000000, 7558594539620000000000000000000000000000000000000000000000000000000000000000000000000000000, 7555981882590000000000000000000000000000000000000000000000000000000000000000000000000000000, 7553119400790000000000000000000000000000000000000000000000000000000000000000000000000000000, 7550030001580000000000000000000000000000000000000000000000000000000000000000000000000000000, 7546734602160000000000000000000000000000000000000000000000000000000000000000000000000000000, 7543252325210000000000000000000000000000000000000000000000000000000000000000000000000000000])]
noncomputable def ttSpec17 : List (Nat × List Nat) := [
  (894303406814000, [6149441270950000000000000000000000000000000000000000000000000000000000000000000000000000000, 6271346147620000000000000000000000000000000000000000000000000000000000000000000000000000000, 6377044301820000000000000000000000000000000000000000000000000000000000000000000000000000000, 6469113011190000000000000000000000000000000000000000000000000000000000000000000000000000000, 6549983271280000000000000000000000000000000000000000000000000000000000000000000000000000000, 6621520169350000000000000000000000000000000000000000000000000000000000000000000000000000000, 6685105017350000000000000000000000000000000000000000000000000000000000000000000000000000000, 6741806371790000000000000000000000000000000000000000000000000000000000000000000000000000000, 6792492824140000000000000000000000000000000000000000000000000000000000000000000000000000000, 6837893231460000000000000000000000000000000000000000000000000000000000000000000000000000000, 6878629385530000000000000000000000000000000000000000000000000000000000000000000000000000000, 6915236136890000000000000000000000000000000000000000000000000000000000000000000000000000000, 6948175711600000000000000000000000000000000000000000000000000000000000000000000000000000000, 6977848940070000000000000000000000000000000000000000000000000000000000000000000000000000000, 7004604490200000000000000000000000000000000000000000000000000000000000000000000000000000000, 7028746595750000000000000000000000000000000000000000000000000000000000000000000000000000000, 7050541558070000000000000000000000000000000000000000000000000000000000000000000000000000000, 7070223220500000000000000000000000000000000000000000000000000000000000000000000000000000000, 7087997578380000000000000000000000000000000000000000000000000000000000000000000000000000000, 7104046663470000000000000000000000000000000000000000000000000000000000000000000000000000000, 7118531821510000000000000000000000000000000000000000000000000000000000000000000000000000000, 7131596483290000000000000000000000000000000000000000000000000000000000000000000000000000000, 7143368513660000000000000000000000000000000000000000000000000000000000000000000000000000000, 7153962208420000000000000000000000000000000000000000000000000000000000000000000000000000000, 7163479997420000000000000000000000000000000000000000000000000000000000000000000000000000000, 7172013901550000000000000000000000000000000000000000000000000000000000000000000000000000000, 7179646783610000000000000000000000000000000000000000000000000000000000000000000000000000000, 7186453425430000000000000000000000000000000000000000000000000000000000000000000000000000000, 7192501458640000000000000000000000000000000000000000000000000000000000000000000000000000000, 7197852171250000000000000000000000000000000000000000000000000000000000000000000000000000000, 7202561208980000000000000000000000000000000000000000000000000000000000000000000000000000000, 7206679186720000000000000000000000000000000000000000000000000000000000000000000000000000000, 7210252223270000000000000000000000000000000000000000000000000000000000000000000000000000000, 7213322410220000000000000000000000000000000000000000000000000000000000000000000000000000000, 7215928224150000000000000000000000000000000000000000000000000000000000000000000000000000000, 7218104890040000000000000000000000000000000000000000000000000000000000000000000000000000000, 7219884702340000000000000000000000000000000000000000000000000000000000000000000000000000000, 7221297309360000000000000000000000000000000000000000000000000000000000000000000000000000000, 7222369965760000000000000000000000000000000000000000000000000000000000000000000000000000000, 7223127757160000000000000000000000000000000000000000000000000000000000000000000000000000000]),
  (896407414830000, [5512232780600000000000000000000000000000000000000000000000000000000000000000000000000000000, 5642609655080000000000000000000000000000000000000000000000000000000000000000000000000000000, 5758459568600000000000000000000000000000000000000000000000000000000000000000000000000000000, 5861696084360000000000000000000000000000000000000000000000000000000000000000000000000000000, 5954270047110000000000000000000000000000000000000000000000000000000000000000000000000000000, 6037726112480000000000000000000000000000000000000000000000000000000000000000000000000000000, 6113235663340000000000000000000000000000000000000000000000000000000000000000000000000000000, 6181729240770000000000000000000000000000000000000000000000000000000000000000000000000000000, 6243984887060000000000000000000000000000000000000000000000000000000000000000000000000000000, 6300673134700000000000000000000000000000000000000000000000000000000000000000000000000000000, 6352379772050000000000000000000000000000000000000000000000000000000000000000000000000000000, 6399619257040000000000000000000000000000000000000000000000000000000000000000000000000000000, 6442844358580000000000000000000000000000000000000000000000000000000000000000000000000000000, 6482454076860000000000000000000000000000000000000000000000000000000000000000000000000000000, 6518800516160000000000000000000000000000000000000000000000000000000000000000000000000000000, 6552194922870000000000000000000000000000000000000000000000000000000000000000000000000000000, 6582912974800000000000000000000000000000000000000000000000000000000000000000000000000000000, 6611199386600000000000000000000000000000000000000000000000000000000000000000000000000000000, 6637271898150000000000000000000000000000000000000000000000000000000000000000000000000000000, 6661324716330000000000000000000000000000000000000000000000000000000000000000000000000000000, 6683531479670000000000000000000000000000000000000000000000000000000000000000000000000000000, 6704047810730000000000000000000000000000000000000000000000000000000000000000000000000000000, 6723013514680000000000000000000000000000000000000000000000000000000000000000000000000000000, 6740554475720000000000000000000000000000000000000000000000000000000000000000000000000000000, 6756784295550000000000000000000000000000000000000000000000000000000000000000000000000000000, 6771805712000000000000000000000000000000000000000000000000000000000000000000000000000000000, 6785711830200000000000000000000000000000000000000000000000000000000000000000000000000000000, 6798587193520000000000000000000000000000000000000000000000000000000000000000000000000000000, 6810508717520000000000000000000000000000000000000000000000000000000000000000000000000000000, 6821546506410000000000000000000000000000000000000000000000000000000000000000000000000000000, 6831764568600000000000000000000000000000000000000000000000000000000000000000000000000000000, 6841221445330000000000000000000000000000000000000000000000000000000000000000000000000000000, 6849970764260000000000000000000000000000000000000000000000000000000000000000000000000000000, 6858061728160000000000000000000000000000000000000000000000000000000000000000000000000000000, 6865539547240000000000000000000000000000000000000000000000000000000000000000000000000000000, 6872445822540000000000000000000000000000000000000000000000000000000000000000000000000000000, 6878818886600000000000000000000000000000000000000000000000000000000000000000000000000000000, 6884694106860000000000000000000000000000000000000000000000000000000000000000000000000000000, 6890104156380000000000000000000000000000000000000000000000000000000000000000000000000000000, 6895079255890000000000000000000000000000000000000000000000000000000000000000000000000000000]),
  (898511422846000, [4922316168610000000000000000000000000000000000000000000000000000000000000000000000000000000, 5055342097510000000000000000000000000000000000000000000000000000000000000000000000000000000, 5176083438050000000000000000000000000000000000000000000000000000000000000000000000000000000, 5285800596710000000000000000000000000000000000000000000000000000000000000000000000000000000, 5385927681230000000000000000000000000000000000000000000000000000000000000000000000000000000, 5477636783740000000000000000000000000000000000000000000000000000000000000000000000000000000, 5561834751840000000000000000000000000000000000000000000000000000000000000000000000000000000, 5639262250670000000000000000000000000000000000000000000000000000000000000000000000000000000, 5710559641920000000000000000000000000000000000000000000000000000000000000000000000000000000, 5776297311780000000000000000000000000000000000000000000000000000000000000000000000000000000, 5836988446850000000000000000000000000000000000000000000000000000000000000000000000000000000, 5893095336820000000000000000000000000000000000000000000000000000000000000000000000000000000, 5945033817400000000000000000000000000000000000000000000000000000000000000000000000000000000, 5993177338130000000000000000000000000000000000000000000000000000000000000000000000000000000, 6037860961470000000000000000000000000000000000000000000000000000000000000000000000000000000, 6079385248820000000000000000000000000000000000000000000000000000000000000000000000000000000, 6118019934250000000000000000000000000000000000000000000000000000000000000000000000000000000, 6154007313820000000000000000000000000000000000000000000000000000000000000000000000000000000, 6187565316550000000000000000000000000000000000000000000000000000000000000000000000000000000, 6218890252700000000000000000000000000000000000000000000000000000000000000000000000000000000, 6248159253060000000000000000000000000000000000000000000000000000000000000000000000000000000, 6275532422950000000000000000000000000000000000000000000000000000000000000000000000000000000, 6301154738390000000000000000000000000000000000000000000000000000000000000000000000000000000, 6325157713020000000000000000000000000000000000000000000000000000000000000000000000000000000, 6347660862530000000000000000000000000000000000000000000000000000000000000000000000000000000, 6368772991780000000000000000000000000000000000000000000000000000000000000000000000000000000, 6388593326760000000000000000000000000000000000000000000000000000000000000000000000000000000, 6407212511440000000000000000000000000000000000000000000000000000000000000000000000000000000, 6424713486720000000000000000000000000000000000000000000000000000000000000000000000000000000, 6441172266610000000000000000000000000000000000000000000000000000000000000000000000000000000, 6456658625000000000000000000000000000000000000000000000000000000000000000000000000000000000, 6471236704160000000000000000000000000000000000000000000000000000000000000000000000000000000, 6484965555030000000000000000000000000000000000000000000000000000000000000000000000000000000, 6497899617700000000000000000000000000000000000000000000000000000000000000000000000000000000, 6510089149590000000000000000000000000000000000000000000000000000000000000000000000000000000, 6521580607600000000000000000000000000000000000000000000000000000000000000000000000000000000, 6532416989930000000000000000000000000000000000000000000000000000000000000000000000000000000, 6542638142190000000000000000000000000000000000000000000000000000000000000000000000000000000, 6552281032170000000000000000000000000000000000000000000000000000000000000000000000000000000, 6561379996870000000000000000000000000000000000000000000000000000000000000000000000000000000]),
  (900615430862000, [4383177622580000000000000000000000000000000000000000000000000000000000000000000000000000000, 4514099544730000000000000000000000000000000000000000000000000000000000000000000000000000000, 4635190454180000000000000000000000000000000000000000000000000000000000000000000000000000000, 4747156256200000000000000000000000000000000000000000000000000000000000000000000000000000000, 4850950366620000000000000000000000000000000000000000000000000000000000000000000000000000000, 4947374039130000000000000000000000000000000000000000000000000000000000000000000000000000000, 5037054176210000000000000000000000000000000000000000000000000000000000000000000000000000000, 5120518216060000000000000000000000000000000000000000000000000000000000000000000000000000000, 5198242496310000000000000000000000000000000000000000000000000000000000000000000000000000000, 5270670612840000000000000000000000000000000000000000000000000000000000000000000000000000000, 5338217629820000000000000000000000000000000000000000000000000000000000000000000000000000000, 5401269965940000000000000000000000000000000000000000000000000000000000000000000000000000000, 5460184914430000000000000000000000000000000000000000000000000000000000000000000000000000000, 5515290900020000000000000000000000000000000000000000000000000000000000000000000000000000000, 5566888519400000000000000000000000000000000000000000000000000000000000000000000000000000000, 5615252128630000000000000000000000000000000000000000000000000000000000000000000000000000000, 5660631728800000000000000000000000000000000000000000000000000000000000000000000000000000000, 5703254962160000000000000000000000000000000000000000000000000000000000000000000000000000000, 5743329095290000000000000000000000000000000000000000000000000000000000000000000000000000000, 5781042915430000000000000000000000000000000000000000000000000000000000000000000000000000000, 5816568500780000000000000000000000000000000000000000000000000000000000000000000000000000000, 5850062847340000000000000000000000000000000000000000000000000000000000000000000000000000000, 5881669348650000000000000000000000000000000000000000000000000000000000000000000000000000000, 5911519132510000000000000000000000000000000000000000000000000000000000000000000000000000000, 5939732263130000000000000000000000000000000000000000000000000000000000000000000000000000000, 5966418819290000000000000000000000000000000000000000000000000000000000000000000000000000000, 5991679859530000000000000000000000000000000000000000000000000000000000000000000000000000000, 6015608285650000000000000000000000000000000000000000000000000000000000000000000000000000000, 6038289614950000000000000000000000000000000000000000000000000000000000000000000000000000000, 6059802671030000000000000000000000000000000000000000000000000000000000000000000000000000000, 6080220202050000000000000000000000000000000000000000000000000000000000000000000000000000000, 6099609434540000000000000000000000000000000000000000000000000000000000000000000000000000000, 6118032569900000000000000000000000000000000000000000000000000000000000000000000000000000000, 6135547230090000000000000000000000000000000000000000000000000000000000000000000000000000000, 6152206858070000000000000000000000000000000000000000000000000000000000000000000000000000000, 6168061078150000000000000000000000000000000000000000000000000000000000000000000000000000000, 6183156020600000000000000000000000000000000000000000000000000000000000000000000000000000000, 6197534614510000000000000000000000000000000000000000000000000000000000000000000000000000000, 6211236852340000000000000000000000000000000000000000000000000000000000000000000000000000000, 6224300029230000000000000000000000000000000000000000000000000000000000000000000000000000000]),
  (902719438878000, [3895550125660000000000000000000000000000000000000000000000000000000000000000000000000000000, 4020800439750000000000000000000000000000000000000000000000000000000000000000000000000000000, 4138605858120000000000000000000000000000000000000000000000000000000000000000000000000000000, 4249258010530000000000000000000000000000000000000000000000000000000000000000000000000000000, 4353313803850000000000000000000000000000000000000000000000000000000000000000000000000000000, 4451247028040000000000000000000000000000000000000000000000000000000000000000000000000000000, 4543422993900000000000000000000000000000000000000000000000000000000000000000000000000000000, 4630159286990000000000000000000000000000000000000000000000000000000000000000000000000000000, 4711762767080000000000000000000000000000000000000000000000000000000000000000000000000000000, 4788539787390000000000000000000000000000000000000000000000000000000000000000000000000000000, 4860794248470000000000000000000000000000000000000000000000000000000000000000000000000000000, 4928822580200000000000000000000000000000000000000000000000000000000000000000000000000000000, 4992909273260000000000000000000000000000000000000000000000000000000000000000000000000000000, 5053323884090000000000000000000000000000000000000000000000000000000000000000000000000000000, 5110319433510000000000000000000000000000000000000000000000000000000000000000000000000000000, 5164131856220000000000000000000000000000000000000000000000000000000000000000000000000000000, 5214980161080000000000000000000000000000000000000000000000000000000000000000000000000000000, 5263067036180000000000000000000000000000000000000000000000000000000000000000000000000000000, 5308579710160000000000000000000000000000000000000000000000000000000000000000000000000000000, 5351690942720000000000000000000000000000000000000000000000000000000000000000000000000000000, 5392560062120000000000000000000000000000000000000000000000000000000000000000000000000000000, 5431333997610000000000000000000000000000000000000000000000000000000000000000000000000000000, 5468148276010000000000000000000000000000000000000000000000000000000000000000000000000000000, 5503127964320000000000000000000000000000000000000000000000000000000000000000000000000000000, 5536388549800000000000000000000000000000000000000000000000000000000000000000000000000000000, 5568036753940000000000000000000000000000000000000000000000000000000000000000000000000000000, 5598171280640000000000000000000000000000000000000000000000000000000000000000000000000000000, 5626883500820000000000000000000000000000000000000000000000000000000000000000000000000000000, 5654258076920000000000000000000000000000000000000000000000000000000000000000000000000000000, 5680373531480000000000000000000000000000000000000000000000000000000000000000000000000000000, 5705302764030000000000000000000000000000000000000000000000000000000000000000000000000000000, 5729113520770000000000000000000000000000000000000000000000000000000000000000000000000000000, 5751868821070000000000000000000000000000000000000000000000000000000000000000000000000000000, 5773627344850000000000000000000000000000000000000000000000000000000000000000000000000000000, 5794443784500000000000000000000000000000000000000000000000000000000000000000000000000000000, 5814369164730000000000000000000000000000000000000000000000000000000000000000000000000000000, 5833451133440000000000000000000000000000000000000000000000000000000000000000000000000000000, 5851734226410000000000000000000000000000000000000000000000000000000000000000000000000000000, 5869260108420000000000000000000000000000000000000000000000000000000000000000000000000000000, 5886067792940000000000000000000000000000000000000000000000000000000000000000000000000000000]),
  (904823446894000, [3458081227820000000000000000000000000000000000000000000000000000000000000000000000000000000, 3575233533390000000000000000000000000000000000000000000000000000000000000000000000000000000, 3687072956150000000000000000000000000000000000000000000000000000000000000000000000000000000, 3793620275450000000000000000000000000000000000000000000000000000000000000000000000000000000, 3895141314410000000000000000000000000000000000000000000000000000000000000000000000000000000, 3991851002260000000000000000000000000000000000000000000000000000000000000000000000000000000, 4083895536170000000000000000000000000000000000000000000000000000000000000000000000000000000, 4171407307850000000000000000000000000000000000000000000000000000000000000000000000000000000, 4254536244310000000000000000000000000000000000000000000000000000000000000000000000000000000, 4333455840840000000000000000000000000000000000000000000000000000000000000000000000000000000, 4408357836270000000000000000000000000000000000000000000000000000000000000000000000000000000, 4479444242970000000000000000000000000000000000000000000000000000000000000000000000000000000, 4546920248670000000000000000000000000000000000000000000000000000000000000000000000000000000, 4610988901470000000000000000000000000000000000000000000000000000000000000000000000000000000, 4671847494430000000000000000000000000000000000000000000000000000000000000000000000000000000, 4729685290960000000000000000000000000000000000000000000000000000000000000000000000000000000, 4784682224630000000000000000000000000000000000000000000000000000000000000000000000000000000, 4837008275880000000000000000000000000000000000000000000000000000000000000000000000000000000, 4886823304780000000000000000000000000000000000000000000000000000000000000000000000000000000, 4934277182200000000000000000000000000000000000000000000000000000000000000000000000000000000, 4979510110270000000000000000000000000000000000000000000000000000000000000000000000000000000, 5022653056350000000000000000000000000000000000000000000000000000000000000000000000000000000, 5063828249820000000000000000000000000000000000000000000000000000000000000000000000000000000, 5103149706820000000000000000000000000000000000000000000000000000000000000000000000000000000, 5140723760340000000000000000000000000000000000000000000000000000000000000000000000000000000, 5176649580730000000000000000000000000000000000000000000000000000000000000000000000000000000, 5211019677130000000000000000000000000000000000000000000000000000000000000000000000000000000, 5243920374440000000000000000000000000000000000000000000000000000000000000000000000000000000, 5275432262650000000000000000000000000000000000000000000000000000000000000000000000000000000, 5305630617410000000000000000000000000000000000000000000000000000000000000000000000000000000, 5334585791650000000000000000000000000000000000000000000000000000000000000000000000000000000, 5362363578930000000000000000000000000000000000000000000000000000000000000000000000000000000, 5389025549770000000000000000000000000000000000000000000000000000000000000000000000000000000, 5414629362230000000000000000000000000000000000000000000000000000000000000000000000000000000, 5439229048460000000000000000000000000000000000000000000000000000000000000000000000000000000, 5462875278730000000000000000000000000000000000000000000000000000000000000000000000000000000, 5485615604690000000000000000000000000000000000000000000000000000000000000000000000000000000, 5507494683360000000000000000000000000000000000000000000000000000000000000000000000000000000, 5528554483330000000000000000000000000000000000000000000000000000000000000000000000000000000, 5548834474690000000000000000000000000000000000000000000000000000000000000000000000000000000]),
  (906927454910000, [3067971890280000000000000000000000000000000000000000000000000000000000000000000000000000000, 3175596230770000000000000000000000000000000000000000000000000000000000000000000000000000000, 3279685462610000000000000000000000000000000000000000000000000000000000000000000000000000000, 3380113118530000000000000000000000000000000000000000000000000000000000000000000000000000000, 3476958134740000000000000000000000000000000000000000000000000000000000000000000000000000000, 3570254249110000000000000000000000000000000000000000000000000000000000000000000000000000000, 3659984109250000000000000000000000000000000000000000000000000000000000000000000000000000000, 3746133458960000000000000000000000000000000000000000000000000000000000000000000000000000000, 3828720960180000000000000000000000000000000000000000000000000000000000000000000000000000000, 3907803334210000000000000000000000000000000000000000000000000000000000000000000000000000000, 3983469261670000000000000000000000000000000000000000000000000000000000000000000000000000000, 4055830473820000000000000000000000000000000000000000000000000000000000000000000000000000000, 4125013542670000000000000000000000000000000000000000000000000000000000000000000000000000000, 4191153365090000000000000000000000000000000000000000000000000000000000000000000000000000000, 4254388343150000000000000000000000000000000000000000000000000000000000000000000000000000000, 4314856963120000000000000000000000000000000000000000000000000000000000000000000000000000000, 4372695441580000000000000000000000000000000000000000000000000000000000000000000000000000000, 4428036156400000000000000000000000000000000000000000000000000000000000000000000000000000000, 4481006644200000000000000000000000000000000000000000000000000000000000000000000000000000000, 4531729001960000000000000000000000000000000000000000000000000000000000000000000000000000000, 4580319574670000000000000000000000000000000000000000000000000000000000000000000000000000000, 4626888843340000000000000000000000000000000000000000000000000000000000000000000000000000000, 4671541452010000000000000000000000000000000000000000000000000000000000000000000000000000000, 4714376329170000000000000000000000000000000000000000000000000000000000000000000000000000000, 4755486871750000000000000000000000000000000000000000000000000000000000000000000000000000000, 4794961168830000000000000000000000000000000000000000000000000000000000000000000000000000000, 4832882248470000000000000000000000000000000000000000000000000000000000000000000000000000000, 4869328336130000000000000000000000000000000000000000000000000000000000000000000000000000000, 4904373116320000000000000000000000000000000000000000000000000000000000000000000000000000000, 4938085991770000000000000000000000000000000000000000000000000000000000000000000000000000000, 4970532336070000000000000000000000000000000000000000000000000000000000000000000000000000000, 5001773737460000000000000000000000000000000000000000000000000000000000000000000000000000000, 5031868231770000000000000000000000000000000000000000000000000000000000000000000000000000000, 5060870523850000000000000000000000000000000000000000000000000000000000000000000000000000000, 5088832197010000000000000000000000000000000000000000000000000000000000000000000000000000000, 5115801910190000000000000000000000000000000000000000000000000000000000000000000000000000000, 5141825583390000000000000000000000000000000000000000000000000000000000000000000000000000000, 5166946571320000000000000000000000000000000000000000000000000000000000000000000000000000000, 5191205826020000000000000000000000000000000000000000000000000000000000000000000000000000000, 5214642048770000000000000000000000000000000000000000000000000000000000000000000000000000000]),
  (909031462926000, [2721529262750000000000000000000000000000000000000000000000000000000000000000000000000000000, 2818998804930000000000000000000000000000000000000000000000000000000000000000000000000000000, 2914325168550000000000000000000000000000000000000000000000000000000000000000000000000000000, 3007329341320000000000000000000000000000000000000000000000000000000000000000000000000000000, 3097991940680000000000000000000000000000000000000000000000000000000000000000000000000000000, 3186239547640000000000000000000000000000000000000000000000000000000000000000000000000000000, 3271949822820000000000000000000000000000000000000000000000000000000000000000000000000000000, 3355006579930000000000000000000000000000000000000000000000000000000000000000000000000000000, 3435330265950000000000000000000000000000000000000000000000000000000000000000000000000000000, 3512884453300000000000000000000000000000000000000000000000000000000000000000000000000000000, 3587671037420000000000000000000000000000000000000000000000000000000000000000000000000000000, 3659722160930000000000000000000000000000000000000000000000000000000000000000000000000000000, 3729092324200000000000000000000000000000000000000000000000000000000000000000000000000000000, 3795851784410000000000000000000000000000000000000000000000000000000000000000000000000000000, 3860081381030000000000000000000000000000000000000000000000000000000000000000000000000000000, 3921868605100000000000000000000000000000000000000000000000000000000000000000000000000000000, 3981304664290000000000000000000000000000000000000000000000000000000000000000000000000000000, 4038482316360000000000000000000000000000000000000000000000000000000000000000000000000000000, 4093494286390000000000000000000000000000000000000000000000000000000000000000000000000000000, 4146432124420000000000000000000000000000000000000000000000000000000000000000000000000000000, 4197385394400000000000000000000000000000000000000000000000000000000000000000000000000000000, 4246441112210000000000000000000000000000000000000000000000000000000000000000000000000000000, 4293683370710000000000000000000000000000000000000000000000000000000000000000000000000000000, 4339193104780000000000000000000000000000000000000000000000000000000000000000000000000000000, 4383047961040000000000000000000000000000000000000000000000000000000000000000000000000000000, 4425322245240000000000000000000000000000000000000000000000000000000000000000000000000000000, 4466086926840000000000000000000000000000000000000000000000000000000000000000000000000000000, 4505409685380000000000000000000000000000000000000000000000000000000000000000000000000000000, 4543354986520000000000000000000000000000000000000000000000000000000000000000000000000000000, 4579984179030000000000000000000000000000000000000000000000000000000000000000000000000000000, 4615355605630000000000000000000000000000000000000000000000000000000000000000000000000000000, 4649524722630000000000000000000000000000000000000000000000000000000000000000000000000000000, 4682544224450000000000000000000000000000000000000000000000000000000000000000000000000000000, 4714464170040000000000000000000000000000000000000000000000000000000000000000000000000000000, 4745332109010000000000000000000000000000000000000000000000000000000000000000000000000000000, 4775193205990000000000000000000000000000000000000000000000000000000000000000000000000000000, 4804090361880000000000000000000000000000000000000000000000000000000000000000000000000000000, 4832064331420000000000000000000000000000000000000000000000000000000000000000000000000000000, 4859153836320000000000000000000000000000000000000000000000000000000000000000000000000000000, 4885395673710000000000000000000000000000000000000000000000000000000000000000000000000000000]),
  (911135470942000, [2414608713650000000000000000000000000000000000000000000000000000000000000000000000000000000, 2501895761880000000000000000000000000000000000000000000000000000000000000000000000000000000, 2588062186760000000000000000000000000000000000000000000000000000000000000000000000000000000, 2672941530870000000000000000000000000000000000000000000000000000000000000000000000000000000, 2756483096800000000000000000000000000000000000000000000000000000000000000000000000000000000, 2838568889190000000000000000000000000000000000000000000000000000000000000000000000000000000, 2919025425860000000000000000000000000000000000000000000000000000000000000000000000000000000, 2997678668810000000000000000000000000000000000000000000000000000000000000000000000000000000, 3074385670580000000000000000000000000000000000000000000000000000000000000000000000000000000, 3149043614910000000000000000000000000000000000000000000000000000000000000000000000000000000, 3221587714310000000000000000000000000000000000000000000000000000000000000000000000000000000, 3291985304400000000000000000000000000000000000000000000000000000000000000000000000000000000, 3360229431300000000000000000000000000000000000000000000000000000000000000000000000000000000, 3426333114840000000000000000000000000000000000000000000000000000000000000000000000000000000, 3490324575900000000000000000000000000000000000000000000000000000000000000000000000000000000, 3552243389590000000000000000000000000000000000000000000000000000000000000000000000000000000, 3612137430310000000000000000000000000000000000000000000000000000000000000000000000000000000, 3670060463870000000000000000000000000000000000000000000000000000000000000000000000000000000, 3726070258500000000000000000000000000000000000000000000000000000000000000000000000000000000, 3780227108580000000000000000000000000000000000000000000000000000000000000000000000000000000, 3832592685880000000000000000000000000000000000000000000000000000000000000000000000000000000, 3883229150130000000000000000000000000000000000000000000000000000000000000000000000000000000, 3932198465470000000000000000000000000000000000000000000000000000000000000000000000000000000, 3979561879790000000000000000000000000000000000000000000000000000000000000000000000000000000, 4025379533290000000000000000000000000000000000000000000000000000000000000000000000000000000, 4069710169400000000000000000000000000000000000000000000000000000000000000000000000000000000, 4112610926570000000000000000000000000000000000000000000000000000000000000000000000000000000, 4154137193950000000000000000000000000000000000000000000000000000000000000000000000000000000, 4194342517330000000000000000000000000000000000000000000000000000000000000000000000000000000, 4233278544610000000000000000000000000000000000000000000000000000000000000000000000000000000, 4270995001890000000000000000000000000000000000000000000000000000000000000000000000000000000, 4307539693570000000000000000000000000000000000000000000000000000000000000000000000000000000, 4342958520640000000000000000000000000000000000000000000000000000000000000000000000000000000, 4377295512930000000000000000000000000000000000000000000000000000000000000000000000000000000, 4410592871750000000000000000000000000000000000000000000000000000000000000000000000000000000, 4442891020050000000000000000000000000000000000000000000000000000000000000000000000000000000, 4474228657970000000000000000000000000000000000000000000000000000000000000000000000000000000, 4504642821950000000000000000000000000000000000000000000000000000000000000000000000000000000, 4534168945970000000000000000000000000000000000000000000000000000000000000000000000000000000, 4562840923980000000000000000000000000000000000000000000000000000000000000000000000000000000]),
  (913239478958000, [2142941503140000000000000000000000000000000000000000000000000000000000000000000000000000000, 2220427627790000000000000000000000000000000000000000000000000000000000000000000000000000000, 2297492427190000000000000000000000000000000000000000000000000000000000000000000000000000000, 2374020777740000000000000000000000000000000000000000000000000000000000000000000000000000000, 2449976790160000000000000000000000000000000000000000000000000000000000000000000000000000000, 2525245795630000000000000000000000000000000000000000000000000000000000000000000000000000000, 2599647326850000000000000000000000000000000000000000000000000000000000000000000000000000000, 2672987689020000000000000000000000000000000000000000000000000000000000000000000000000000000, 2745092370140000000000000000000000000000000000000000000000000000000000000000000000000000000, 2815818067680000000000000000000000000000000000000000000000000000000000000000000000000000000, 2885054043940000000000000000000000000000000000000000000000000000000000000000000000000000000, 2952719206160000000000000000000000000000000000000000000000000000000000000000000000000000000, 3018757930300000000000000000000000000000000000000000000000000000000000000000000000000000000, 3083135852010000000000000000000000000000000000000000000000000000000000000000000000000000000, 3145836057560000000000000000000000000000000000000000000000000000000000000000000000000000000, 3206855787810000000000000000000000000000000000000000000000000000000000000000000000000000000, 3266203646810000000000000000000000000000000000000000000000000000000000000000000000000000000, 3323897265180000000000000000000000000000000000000000000000000000000000000000000000000000000, 3379961358280000000000000000000000000000000000000000000000000000000000000000000000000000000, 3434426120440000000000000000000000000000000000000000000000000000000000000000000000000000000, 3487325902660000000000000000000000000000000000000000000000000000000000000000000000000000000, 3538698127580000000000000000000000000000000000000000000000000000000000000000000000000000000, 3588582402550000000000000000000000000000000000000000000000000000000000000000000000000000000, 3637019797290000000000000000000000000000000000000000000000000000000000000000000000000000000, 3684052258200000000000000000000000000000000000000000000000000000000000000000000000000000000, 3729722135850000000000000000000000000000000000000000000000000000000000000000000000000000000, 3774071805930000000000000000000000000000000000000000000000000000000000000000000000000000000, 3817143367510000000000000000000000000000000000000000000000000000000000000000000000000000000, 3858978404800000000000000000000000000000000000000000000000000000000000000000000000000000000, 3899617801470000000000000000000000000000000000000000000000000000000000000000000000000000000, 3939101597800000000000000000000000000000000000000000000000000000000000000000000000000000000, 3977468883280000000000000000000000000000000000000000000000000000000000000000000000000000000, 4014757717990000000000000000000000000000000000000000000000000000000000000000000000000000000, 4051005077580000000000000000000000000000000000000000000000000000000000000000000000000000000, 4086246817380000000000000000000000000000000000000000000000000000000000000000000000000000000, 4120517652090000000000000000000000000000000000000000000000000000000000000000000000000000000, 4153851147940000000000000000000000000000000000000000000000000000000000000000000000000000000, 4186279724950000000000000000000000000000000000000000000000000000000000000000000000000000000, 4217834667100000000000000000000000000000000000000000000000000000000000000000000000000000000, 4248546138800000000000000000000000000000000000000000000000000000000000000000000000000000000]),
  (915343486974000, [1902357312400000000000000000000000000000000000000000000000000000000000000000000000000000000, 1970672102410000000000000000000000000000000000000000000000000000000000000000000000000000000, 2039001846990000000000000000000000000000000000000000000000000000000000000000000000000000000, 2107301312160000000000000000000000000000000000000000000000000000000000000000000000000000000, 2175579085560000000000000000000000000000000000000000000000000000000000000000000000000000000, 2243756905450000000000000000000000000000000000000000000000000000000000000000000000000000000, 2311679133280000000000000000000000000000000000000000000000000000000000000000000000000000000, 2379161228400000000000000000000000000000000000000000000000000000000000000000000000000000000, 2446022477640000000000000000000000000000000000000000000000000000000000000000000000000000000, 2512101044120000000000000000000000000000000000000000000000000000000000000000000000000000000, 2577258991730000000000000000000000000000000000000000000000000000000000000000000000000000000, 2641382630800000000000000000000000000000000000000000000000000000000000000000000000000000000, 2704380885500000000000000000000000000000000000000000000000000000000000000000000000000000000, 2766182926480000000000000000000000000000000000000000000000000000000000000000000000000000000, 2826735631070000000000000000000000000000000000000000000000000000000000000000000000000000000, 2886001124690000000000000000000000000000000000000000000000000000000000000000000000000000000, 2943954513830000000000000000000000000000000000000000000000000000000000000000000000000000000, 3000581852670000000000000000000000000000000000000000000000000000000000000000000000000000000, 3055878350500000000000000000000000000000000000000000000000000000000000000000000000000000000, 3109846810520000000000000000000000000000000000000000000000000000000000000000000000000000000, 3162496281960000000000000000000000000000000000000000000000000000000000000000000000000000000, 3213840904260000000000000000000000000000000000000000000000000000000000000000000000000000000, 3263898921440000000000000000000000000000000000000000000000000000000000000000000000000000000, 3312691845250000000000000000000000000000000000000000000000000000000000000000000000000000000, 3360243747790000000000000000000000000000000000000000000000000000000000000000000000000000000, 3406580665410000000000000000000000000000000000000000000000000000000000000000000000000000000, 3451730098450000000000000000000000000000000000000000000000000000000000000000000000000000000, 3495720592680000000000000000000000000000000000000000000000000000000000000000000000000000000, 3538581390510000000000000000000000000000000000000000000000000000000000000000000000000000000, 3580342141450000000000000000000000000000000000000000000000000000000000000000000000000000000, 3621032662820000000000000000000000000000000000000000000000000000000000000000000000000000000, 3660682743090000000000000000000000000000000000000000000000000000000000000000000000000000000, 3699321981190000000000000000000000000000000000000000000000000000000000000000000000000000000, 3736979656220000000000000000000000000000000000000000000000000000000000000000000000000000000, 3773684622800000000000000000000000000000000000000000000000000000000000000000000000000000000, 3809465227950000000000000000000000000000000000000000000000000000000000000000000000000000000, 3844349246110000000000000000000000000000000000000000000000000000000000000000000000000000000, 3878363829370000000000000000000000000000000000000000000000000000000000000000000000000000000, 3911535470440000000000000000000000000000000000000000000000000000000000000000000000000000000, 3943889976130000000000000000000000000000000000000000000000000000000000000000000000000000000]),
  (917447494990000, [1688918558680000000000000000000000000000000000000000000000000000000000000000000000000000000, 1748812949280000000000000000000000000000000000000000000000000000000000000000000000000000000, 1808958129830000000000000000000000000000000000000000000000000000000000000000000000000000000, 1869386207300000000000000000000000000000000000000000000000000000000000000000000000000000000, 1930168462870000000000000000000000000000000000000000000000000000000000000000000000000000000, 1991282198190000000000000000000000000000000000000000000000000000000000000000000000000000000, 2052614937330000000000000000000000000000000000000000000000000000000000000000000000000000000, 2114008871640000000000000000000000000000000000000000000000000000000000000000000000000000000, 2175294001970000000000000000000000000000000000000000000000000000000000000000000000000000000, 2236306065490000000000000000000000000000000000000000000000000000000000000000000000000000000, 2296894974000000000000000000000000000000000000000000000000000000000000000000000000000000000, 2356928193940000000000000000000000000000000000000000000000000000000000000000000000000000000, 2416291515280000000000000000000000000000000000000000000000000000000000000000000000000000000, 2474888481590000000000000000000000000000000000000000000000000000000000000000000000000000000, 2532639154670000000000000000000000000000000000000000000000000000000000000000000000000000000, 2589478582150000000000000000000000000000000000000000000000000000000000000000000000000000000, 2645355174510000000000000000000000000000000000000000000000000000000000000000000000000000000, 2700229107220000000000000000000000000000000000000000000000000000000000000000000000000000000, 2754070811510000000000000000000000000000000000000000000000000000000000000000000000000000000, 2806859585460000000000000000000000000000000000000000000000000000000000000000000000000000000, 2858582338420000000000000000000000000000000000000000000000000000000000000000000000000000000, 2909232470410000000000000000000000000000000000000000000000000000000000000000000000000000000, 2958808881410000000000000000000000000000000000000000000000000000000000000000000000000000000, 3007315101990000000000000000000000000000000000000000000000000000000000000000000000000000000, 3054758534740000000000000000000000000000000000000000000000000000000000000000000000000000000, 3101149795670000000000000000000000000000000000000000000000000000000000000000000000000000000, 3146502144450000000000000000000000000000000000000000000000000000000000000000000000000000000, 3190830993370000000000000000000000000000000000000000000000000000000000000000000000000000000, 3234153485380000000000000000000000000000000000000000000000000000000000000000000000000000000, 3276488132390000000000000000000000000000000000000000000000000000000000000000000000000000000, 3317854506270000000000000000000000000000000000000000000000000000000000000000000000000000000, 3358272975460000000000000000000000000000000000000000000000000000000000000000000000000000000, 3397764481020000000000000000000000000000000000000000000000000000000000000000000000000000000, 3436350347020000000000000000000000000000000000000000000000000000000000000000000000000000000, 3474052120310000000000000000000000000000000000000000000000000000000000000000000000000000000, 3510891435710000000000000000000000000000000000000000000000000000000000000000000000000000000, 3546889903140000000000000000000000000000000000000000000000000000000000000000000000000000000, 3582069013490000000000000000000000000000000000000000000000000000000000000000000000000000000, 3616450060680000000000000000000000000000000000000000000000000000000000000000000000000000000, 3650054077520000000000000000000000000000000000000000000000000000000000000000000000000000000]),
  (919551503006000, [1498986623830000000000000000000000000000000000000000000000000000000000000000000000000000000, 1551239560780000000000000000000000000000000000000000000000000000000000000000000000000000000, 1603837976210000000000000000000000000000000000000000000000000000000000000000000000000000000, 1656897901090000000000000000000000000000000000000000000000000000000000000000000000000000000, 1710562523100000000000000000000000000000000000000000000000000000000000000000000000000000000, 1764870178530000000000000000000000000000000000000000000000000000000000000000000000000000000, 1819756197140000000000000000000000000000000000000000000000000000000000000000000000000000000, 1875095542510000000000000000000000000000000000000000000000000000000000000000000000000000000, 1930736975500000000000000000000000000000000000000000000000000000000000000000000000000000000, 1986523500360000000000000000000000000000000000000000000000000000000000000000000000000000000, 2042303512800000000000000000000000000000000000000000000000000000000000000000000000000000000, 2097936521870000000000000000000000000000000000000000000000000000000000000000000000000000000, 2153295783520000000000000000000000000000000000000000000000000000000000000000000000000000000, 2208269170770000000000000000000000000000000000000000000000000000000000000000000000000000000, 2262759038430000000000000000000000000000000000000000000000000000000000000000000000000000000, 2316681526160000000000000000000000000000000000000000000000000000000000000000000000000000000, 2369965565530000000000000000000000000000000000000000000000000000000000000000000000000000000, 2422551752460000000000000000000000000000000000000000000000000000000000000000000000000000000, 2474391183600000000000000000000000000000000000000000000000000000000000000000000000000000000, 2525444316090000000000000000000000000000000000000000000000000000000000000000000000000000000, 2575679885290000000000000000000000000000000000000000000000000000000000000000000000000000000, 2625073899550000000000000000000000000000000000000000000000000000000000000000000000000000000, 2673608720520000000000000000000000000000000000000000000000000000000000000000000000000000000, 2721272231110000000000000000000000000000000000000000000000000000000000000000000000000000000, 2768057089350000000000000000000000000000000000000000000000000000000000000000000000000000000, 2813960063560000000000000000000000000000000000000000000000000000000000000000000000000000000, 2858981443230000000000000000000000000000000000000000000000000000000000000000000000000000000, 2903124519160000000000000000000000000000000000000000000000000000000000000000000000000000000, 2946395126440000000000000000000000000000000000000000000000000000000000000000000000000000000, 2988801243850000000000000000000000000000000000000000000000000000000000000000000000000000000, 3030352643620000000000000000000000000000000000000000000000000000000000000000000000000000000, 3071060586010000000000000000000000000000000000000000000000000000000000000000000000000000000, 3110937553450000000000000000000000000000000000000000000000000000000000000000000000000000000, 3149997019680000000000000000000000000000000000000000000000000000000000000000000000000000000, 3188253249640000000000000000000000000000000000000000000000000000000000000000000000000000000, 3225721126340000000000000000000000000000000000000000000000000000000000000000000000000000000, 3262416001480000000000000000000000000000000000000000000000000000000000000000000000000000000, 3298353566770000000000000000000000000000000000000000000000000000000000000000000000000000000, 3333549743350000000000000000000000000000000000000000000000000000000000000000000000000000000, 3368020587110000000000000000000000000000000000000000000000000000000000000000000000000000000]),
  (921655511022000, [1329238564370000000000000000000000000000000000000000000000000000000000000000000000000000000, 1374591802640000000000000000000000000000000000000000000000000000000000000000000000000000000, 1420303224510000000000000000000000000000000000000000000000000000000000000000000000000000000, 1466583572350000000000000000000000000000000000000000000000000000000000000000000000000000000, 1513645653520000000000000000000000000000000000000000000000000000000000000000000000000000000, 1561579732520000000000000000000000000000000000000000000000000000000000000000000000000000000, 1610360636540000000000000000000000000000000000000000000000000000000000000000000000000000000, 1659891870010000000000000000000000000000000000000000000000000000000000000000000000000000000, 1710041238920000000000000000000000000000000000000000000000000000000000000000000000000000000, 1760662990630000000000000000000000000000000000000000000000000000000000000000000000000000000, 1811610507490000000000000000000000000000000000000000000000000000000000000000000000000000000, 1862743303220000000000000000000000000000000000000000000000000000000000000000000000000000000, 1913930694940000000000000000000000000000000000000000000000000000000000000000000000000000000, 1965053535220000000000000000000000000000000000000000000000000000000000000000000000000000000, 2016004802890000000000000000000000000000000000000000000000000000000000000000000000000000000, 2066689519300000000000000000000000000000000000000000000000000000000000000000000000000000000, 2117024269480000000000000000000000000000000000000000000000000000000000000000000000000000000, 2166936499920000000000000000000000000000000000000000000000000000000000000000000000000000000, 2216363701430000000000000000000000000000000000000000000000000000000000000000000000000000000, 2265252546110000000000000000000000000000000000000000000000000000000000000000000000000000000, 2313558023190000000000000000000000000000000000000000000000000000000000000000000000000000000, 2361242601550000000000000000000000000000000000000000000000000000000000000000000000000000000, 2408275436260000000000000000000000000000000000000000000000000000000000000000000000000000000, 2454631628630000000000000000000000000000000000000000000000000000000000000000000000000000000, 2500291544530000000000000000000000000000000000000000000000000000000000000000000000000000000, 2545240191950000000000000000000000000000000000000000000000000000000000000000000000000000000, 2589466656820000000000000000000000000000000000000000000000000000000000000000000000000000000, 2632963594600000000000000000000000000000000000000000000000000000000000000000000000000000000, 2675726774060000000000000000000000000000000000000000000000000000000000000000000000000000000, 2717754669720000000000000000000000000000000000000000000000000000000000000000000000000000000, 2759048098670000000000000000000000000000000000000000000000000000000000000000000000000000000, 2799609897980000000000000000000000000000000000000000000000000000000000000000000000000000000, 2839444638740000000000000000000000000000000000000000000000000000000000000000000000000000000, 2878558373130000000000000000000000000000000000000000000000000000000000000000000000000000000, 2916958411040000000000000000000000000000000000000000000000000000000000000000000000000000000, 2954653123280000000000000000000000000000000000000000000000000000000000000000000000000000000, 2991651768240000000000000000000000000000000000000000000000000000000000000000000000000000000, 3027964339740000000000000000000000000000000000000000000000000000000000000000000000000000000, 3063601433380000000000000000000000000000000000000000000000000000000000000000000000000000000, 3098574129590000000000000000000000000000000000000000000000000000000000000000000000000000000]),
  (923759519038000, [1176647588210000000000000000000000000000000000000000000000000000000000000000000000000000000, 1215765904780000000000000000000000000000000000000000000000000000000000000000000000000000000, 1255242835170000000000000000000000000000000000000000000000000000000000000000000000000000000, 1295389466650000000000000000000000000000000000000000000000000000000000000000000000000000000, 1336467122020000000000000000000000000000000000000000000000000000000000000000000000000000000, 1378593679950000000000000000000000000000000000000000000000000000000000000000000000000000000, 1421764605310000000000000000000000000000000000000000000000000000000000000000000000000000000, 1465900387600000000000000000000000000000000000000000000000000000000000000000000000000000000, 1510882876620000000000000000000000000000000000000000000000000000000000000000000000000000000, 1556577561700000000000000000000000000000000000000000000000000000000000000000000000000000000, 1602846239940000000000000000000000000000000000000000000000000000000000000000000000000000000, 1649553994520000000000000000000000000000000000000000000000000000000000000000000000000000000, 1696572944610000000000000000000000000000000000000000000000000000000000000000000000000000000, 1743784168180000000000000000000000000000000000000000000000000000000000000000000000000000000, 1791078571270000000000000000000000000000000000000000000000000000000000000000000000000000000, 1838357131840000000000000000000000000000000000000000000000000000000000000000000000000000000, 1885530763000000000000000000000000000000000000000000000000000000000000000000000000000000000, 1932519941970000000000000000000000000000000000000000000000000000000000000000000000000000000, 1979254197280000000000000000000000000000000000000000000000000000000000000000000000000000000, 2025671515350000000000000000000000000000000000000000000000000000000000000000000000000000000, 2071717708370000000000000000000000000000000000000000000000000000000000000000000000000000000, 2117345771870000000000000000000000000000000000000000000000000000000000000000000000000000000, 2162515252250000000000000000000000000000000000000000000000000000000000000000000000000000000, 2207191637040000000000000000000000000000000000000000000000000000000000000000000000000000000, 2251345776740000000000000000000000000000000000000000000000000000000000000000000000000000000, 2294953343070000000000000000000000000000000000000000000000000000000000000000000000000000000, 2337994326330000000000000000000000000000000000000000000000000000000000000000000000000000000, 2380452572330000000000000000000000000000000000000000000000000000000000000000000000000000000, 2422315358630000000000000000000000000000000000000000000000000000000000000000000000000000000, 2463573008550000000000000000000000000000000000000000000000000000000000000000000000000000000, 2504218541060000000000000000000000000000000000000000000000000000000000000000000000000000000, 2544247354330000000000000000000000000000000000000000000000000000000000000000000000000000000, 2583656940520000000000000000000000000000000000000000000000000000000000000000000000000000000, 2622446629340000000000000000000000000000000000000000000000000000000000000000000000000000000, 2660617358090000000000000000000000000000000000000000000000000000000000000000000000000000000, 2698171465610000000000000000000000000000000000000000000000000000000000000000000000000000000, 2735112508220000000000000000000000000000000000000000000000000000000000000000000000000000000, 2771445095310000000000000000000000000000000000000000000000000000000000000000000000000000000, 2807174742860000000000000000000000000000000000000000000000000000000000000000000000000000000, 2842307743050000000000000000000000000000000000000000000000000000000000000000000000000000000]),
  (925863527054000, [1038435121300000000000000000000000000000000000000000000000000000000000000000000000000000000, 1071900440910000000000000000000000000000000000000000000000000000000000000000000000000000000, 1105800897350000000000000000000000000000000000000000000000000000000000000000000000000000000, 1140519858750000000000000000000000000000000000000000000000000000000000000000000000000000000, 1176320016270000000000000000000000000000000000000000000000000000000000000000000000000000000, 1213310038040000000000000000000000000000000000000000000000000000000000000000000000000000000, 1251481614910000000000000000000000000000000000000000000000000000000000000000000000000000000, 1290757908070000000000000000000000000000000000000000000000000000000000000000000000000000000, 1331027979320000000000000000000000000000000000000000000000000000000000000000000000000000000, 1372166951720000000000000000000000000000000000000000000000000000000000000000000000000000000, 1414046892830000000000000000000000000000000000000000000000000000000000000000000000000000000, 1456542489110000000000000000000000000000000000000000000000000000000000000000000000000000000, 1499533971150000000000000000000000000000000000000000000000000000000000000000000000000000000, 1542908609060000000000000000000000000000000000000000000000000000000000000000000000000000000, 1586561443690000000000000000000000000000000000000000000000000000000000000000000000000000000, 1630395583060000000000000000000000000000000000000000000000000000000000000000000000000000000, 1674322230440000000000000000000000000000000000000000000000000000000000000000000000000000000, 1718260535420000000000000000000000000000000000000000000000000000000000000000000000000000000, 1762137323490000000000000000000000000000000000000000000000000000000000000000000000000000000, 1805886742800000000000000000000000000000000000000000000000000000000000000000000000000000000, 1849449856570000000000000000000000000000000000000000000000000000000000000000000000000000000, 1892774203250000000000000000000000000000000000000000000000000000000000000000000000000000000, 1935813341700000000000000000000000000000000000000000000000000000000000000000000000000000000, 1978526394420000000000000000000000000000000000000000000000000000000000000000000000000000000, 2020877598670000000000000000000000000000000000000000000000000000000000000000000000000000000, 2062835872620000000000000000000000000000000000000000000000000000000000000000000000000000000, 2104374401430000000000000000000000000000000000000000000000000000000000000000000000000000000, 2145470246270000000000000000000000000000000000000000000000000000000000000000000000000000000, 2186103978220000000000000000000000000000000000000000000000000000000000000000000000000000000, 2226259337760000000000000000000000000000000000000000000000000000000000000000000000000000000, 2265922919720000000000000000000000000000000000000000000000000000000000000000000000000000000, 2305083883400000000000000000000000000000000000000000000000000000000000000000000000000000000, 2343733686620000000000000000000000000000000000000000000000000000000000000000000000000000000, 2381865842730000000000000000000000000000000000000000000000000000000000000000000000000000000, 2419475699170000000000000000000000000000000000000000000000000000000000000000000000000000000, 2456560236150000000000000000000000000000000000000000000000000000000000000000000000000000000, 2493117883990000000000000000000000000000000000000000000000000000000000000000000000000000000, 2529148357760000000000000000000000000000000000000000000000000000000000000000000000000000000, 2564652507770000000000000000000000000000000000000000000000000000000000000000000000000000000, 2599632184590000000000000000000000000000000000000000000000000000000000000000000000000000000]),
  (927967535070000, [912004024043000000000000000000000000000000000000000000000000000000000000000000000000000000, 940368290919000000000000000000000000000000000000000000000000000000000000000000000000000000, 969412223976000000000000000000000000000000000000000000000000000000000000000000000000000000, 999494727020000000000000000000000000000000000000000000000000000000000000000000000000000000, 1030809475970000000000000000000000000000000000000000000000000000000000000000000000000000000, 1063415771060000000000000000000000000000000000000000000000000000000000000000000000000000000, 1097279430800000000000000000000000000000000000000000000000000000000000000000000000000000000, 1132314826980000000000000000000000000000000000000000000000000000000000000000000000000000000, 1168413328470000000000000000000000000000000000000000000000000000000000000000000000000000000, 1205458908060000000000000000000000000000000000000000000000000000000000000000000000000000000, 1243335709070000000000000000000000000000000000000000000000000000000000000000000000000000000, 1281931431290000000000000000000000000000000000000000000000000000000000000000000000000000000, 1321138788240000000000000000000000000000000000000000000000000000000000000000000000000000000, 1360856145830000000000000000000000000000000000000000000000000000000000000000000000000000000, 1400987824260000000000000000000000000000000000000000000000000000000000000000000000000000000, 1441444246390000000000000000000000000000000000000000000000000000000000000000000000000000000, 1482141993240000000000000000000000000000000000000000000000000000000000000000000000000000000, 1523003784090000000000000000000000000000000000000000000000000000000000000000000000000000000, 1563958388140000000000000000000000000000000000000000000000000000000000000000000000000000000, 1604940474770000000000000000000000000000000000000000000000000000000000000000000000000000000, 1645890411600000000000000000000000000000000000000000000000000000000000000000000000000000000, 1686754020920000000000000000000000000000000000000000000000000000000000000000000000000000000, 1727482305590000000000000000000000000000000000000000000000000000000000000000000000000000000, 1768031154360000000000000000000000000000000000000000000000000000000000000000000000000000000, 1808361036050000000000000000000000000000000000000000000000000000000000000000000000000000000, 1848436689700000000000000000000000000000000000000000000000000000000000000000000000000000000, 1888226817180000000000000000000000000000000000000000000000000000000000000000000000000000000, 1927703782630000000000000000000000000000000000000000000000000000000000000000000000000000000, 1966843322440000000000000000000000000000000000000000000000000000000000000000000000000000000, 2005624268070000000000000000000000000000000000000000000000000000000000000000000000000000000, 2044028283380000000000000000000000000000000000000000000000000000000000000000000000000000000, 2082039617470000000000000000000000000000000000000000000000000000000000000000000000000000000, 2119644873400000000000000000000000000000000000000000000000000000000000000000000000000000000, 2156832792710000000000000000000000000000000000000000000000000000000000000000000000000000000, 2193594055750000000000000000000000000000000000000000000000000000000000000000000000000000000, 2229921096980000000000000000000000000000000000000000000000000000000000000000000000000000000, 2265807934860000000000000000000000000000000000000000000000000000000000000000000000000000000, 2301250015490000000000000000000000000000000000000000000000000000000000000000000000000000000, 2336244069250000000000000000000000000000000000000000000000000000000000000000000000000000000, 2370787979510000000000000000000000000000000000000000000000000000000000000000000000000000000]),
  (930071543086000, [794881790750000000000000000000000000000000000000000000000000000000000000000000000000000000, 818808273121000000000000000000000000000000000000000000000000000000000000000000000000000000, 843863931921000000000000000000000000000000000000000000000000000000000000000000000000000000, 870214544960000000000000000000000000000000000000000000000000000000000000000000000000000000, 897913982727000000000000000000000000000000000000000000000000000000000000000000000000000000, 926944825486000000000000000000000000000000000000000000000000000000000000000000000000000000, 957236630531000000000000000000000000000000000000000000000000000000000000000000000000000000, 988691737739000000000000000000000000000000000000000000000000000000000000000000000000000000, 1021203961990000000000000000000000000000000000000000000000000000000000000000000000000000000, 1054668016790000000000000000000000000000000000000000000000000000000000000000000000000000000, 1088982988890000000000000000000000000000000000000000000000000000000000000000000000000000000, 1124053040150000000000000000000000000000000000000000000000000000000000000000000000000000000, 1159787174180000000000000000000000000000000000000000000000000000000000000000000000000000000, 1196098875100000000000000000000000000000000000000000000000000000000000000000000000000000000, 1232905874300000000000000000000000000000000000000000000000000000000000000000000000000000000, 1270130066640000000000000000000000000000000000000000000000000000000000000000000000000000000, 1307697524160000000000000000000000000000000000000000000000000000000000000000000000000000000, 1345538549580000000000000000000000000000000000000000000000000000000000000000000000000000000, 1383587726470000000000000000000000000000000000000000000000000000000000000000000000000000000, 1421783940730000000000000000000000000000000000000000000000000000000000000000000000000000000, 1460070361900000000000000000000000000000000000000000000000000000000000000000000000000000000, 1498394381990000000000000000000000000000000000000000000000000000000000000000000000000000000, 1536707515040000000000000000000000000000000000000000000000000000000000000000000000000000000, 1574965263440000000000000000000000000000000000000000000000000000000000000000000000000000000, 1613126957950000000000000000000000000000000000000000000000000000000000000000000000000000000, 1651155578300000000000000000000000000000000000000000000000000000000000000000000000000000000, 1689017560820000000000000000000000000000000000000000000000000000000000000000000000000000000, 1726682598480000000000000000000000000000000000000000000000000000000000000000000000000000000, 1764123438000000000000000000000000000000000000000000000000000000000000000000000000000000000, 1801315677690000000000000000000000000000000000000000000000000000000000000000000000000000000, 1838237568880000000000000000000000000000000000000000000000000000000000000000000000000000000, 1874869823090000000000000000000000000000000000000000000000000000000000000000000000000000000, 1911195426680000000000000000000000000000000000000000000000000000000000000000000000000000000, 1947199463840000000000000000000000000000000000000000000000000000000000000000000000000000000, 1982868948830000000000000000000000000000000000000000000000000000000000000000000000000000000, 2018192667740000000000000000000000000000000000000000000000000000000000000000000000000000000, 2053161029950000000000000000000000000000000000000000000000000000000000000000000000000000000, 2087765929210000000000000000000000000000000000000000000000000000000000000000000000000000000, 2122000614260000000000000000000000000000000000000000000000000000000000000000000000000000000, 2155859568430000000000000000000000000000000000000000000000000000000000000000000000000000000]),
  (932175551102000, [684742511871000000000000000000000000000000000000000000000000000000000000000000000000000000, 705229566279000000000000000000000000000000000000000000000000000000000000000000000000000000, 727390209575000000000000000000000000000000000000000000000000000000000000000000000000000000, 751030813950000000000000000000000000000000000000000000000000000000000000000000000000000000, 776036991507000000000000000000000000000000000000000000000000000000000000000000000000000000, 802318494882000000000000000000000000000000000000000000000000000000000000000000000000000000, 829777667678000000000000000000000000000000000000000000000000000000000000000000000000000000, 858313101506000000000000000000000000000000000000000000000000000000000000000000000000000000, 887827716774000000000000000000000000000000000000000000000000000000000000000000000000000000, 918232240466000000000000000000000000000000000000000000000000000000000000000000000000000000, 949445004408000000000000000000000000000000000000000000000000000000000000000000000000000000, 981390330900000000000000000000000000000000000000000000000000000000000000000000000000000000, 1013996876670000000000000000000000000000000000000000000000000000000000000000000000000000000, 1047196442450000000000000000000000000000000000000000000000000000000000000000000000000000000, 1080923298710000000000000000000000000000000000000000000000000000000000000000000000000000000, 1115113910160000000000000000000000000000000000000000000000000000000000000000000000000000000, 1149706915150000000000000000000000000000000000000000000000000000000000000000000000000000000, 1184643241020000000000000000000000000000000000000000000000000000000000000000000000000000000, 1219866272870000000000000000000000000000000000000000000000000000000000000000000000000000000, 1255322024100000000000000000000000000000000000000000000000000000000000000000000000000000000, 1290959280140000000000000000000000000000000000000000000000000000000000000000000000000000000, 1326729702200000000000000000000000000000000000000000000000000000000000000000000000000000000, 1362587887120000000000000000000000000000000000000000000000000000000000000000000000000000000, 1398491385190000000000000000000000000000000000000000000000000000000000000000000000000000000, 1434400680440000000000000000000000000000000000000000000000000000000000000000000000000000000, 1470279139210000000000000000000000000000000000000000000000000000000000000000000000000000000, 1506092933150000000000000000000000000000000000000000000000000000000000000000000000000000000, 1541810942300000000000000000000000000000000000000000000000000000000000000000000000000000000, 1577404643400000000000000000000000000000000000000000000000000000000000000000000000000000000, 1612847988070000000000000000000000000000000000000000000000000000000000000000000000000000000, 1648117274460000000000000000000000000000000000000000000000000000000000000000000000000000000, 1683191015550000000000000000000000000000000000000000000000000000000000000000000000000000000, 1718049806680000000000000000000000000000000000000000000000000000000000000000000000000000000, 1752676194160000000000000000000000000000000000000000000000000000000000000000000000000000000, 1787054546570000000000000000000000000000000000000000000000000000000000000000000000000000000, 1821170929850000000000000000000000000000000000000000000000000000000000000000000000000000000, 1855012987160000000000000000000000000000000000000000000000000000000000000000000000000000000, 1888569823830000000000000000000000000000000000000000000000000000000000000000000000000000000, 1921831898040000000000000000000000000000000000000000000000000000000000000000000000000000000, 1954790917290000000000000000000000000000000000000000000000000000000000000000000000000000000]),
  (934279559118000, [579610623286000000000000000000000000000000000000000000000000000000000000000000000000000000, 598199600755000000000000000000000000000000000000000000000000000000000000000000000000000000, 618787202636000000000000000000000000000000000000000000000000000000000000000000000000000000, 640808887498000000000000000000000000000000000000000000000000000000000000000000000000000000, 664039730874000000000000000000000000000000000000000000000000000000000000000000000000000000, 688362944508000000000000000000000000000000000000000000000000000000000000000000000000000000, 713684089943000000000000000000000000000000000000000000000000000000000000000000000000000000, 739917361981000000000000000000000000000000000000000000000000000000000000000000000000000000, 766987094468000000000000000000000000000000000000000000000000000000000000000000000000000000, 794827944728000000000000000000000000000000000000000000000000000000000000000000000000000000, 823382718757000000000000000000000000000000000000000000000000000000000000000000000000000000, 852599536102000000000000000000000000000000000000000000000000000000000000000000000000000000, 882429447624000000000000000000000000000000000000000000000000000000000000000000000000000000, 912824846395000000000000000000000000000000000000000000000000000000000000000000000000000000, 943738607102000000000000000000000000000000000000000000000000000000000000000000000000000000, 975123759729000000000000000000000000000000000000000000000000000000000000000000000000000000, 1006933503460000000000000000000000000000000000000000000000000000000000000000000000000000000, 1039121409730000000000000000000000000000000000000000000000000000000000000000000000000000000, 1071641710290000000000000000000000000000000000000000000000000000000000000000000000000000000, 1104449604650000000000000000000000000000000000000000000000000000000000000000000000000000000, 1137501548450000000000000000000000000000000000000000000000000000000000000000000000000000000, 1170755502970000000000000000000000000000000000000000000000000000000000000000000000000000000, 1204171137360000000000000000000000000000000000000000000000000000000000000000000000000000000, 1237709982460000000000000000000000000000000000000000000000000000000000000000000000000000000, 1271335538750000000000000000000000000000000000000000000000000000000000000000000000000000000, 1305013343330000000000000000000000000000000000000000000000000000000000000000000000000000000, 1338711001370000000000000000000000000000000000000000000000000000000000000000000000000000000, 1372398187800000000000000000000000000000000000000000000000000000000000000000000000000000000, 1406046624630000000000000000000000000000000000000000000000000000000000000000000000000000000, 1439630038810000000000000000000000000000000000000000000000000000000000000000000000000000000, 1473124104970000000000000000000000000000000000000000000000000000000000000000000000000000000, 1506506376780000000000000000000000000000000000000000000000000000000000000000000000000000000, 1539756210100000000000000000000000000000000000000000000000000000000000000000000000000000000, 1572854680520000000000000000000000000000000000000000000000000000000000000000000000000000000, 1605784497580000000000000000000000000000000000000000000000000000000000000000000000000000000, 1638529917260000000000000000000000000000000000000000000000000000000000000000000000000000000, 1671076654330000000000000000000000000000000000000000000000000000000000000000000000000000000, 1703411795540000000000000000000000000000000000000000000000000000000000000000000000000000000, 1735523714610000000000000000000000000000000000000000000000000000000000000000000000000000000, 1767401989580000000000000000000000000000000000000000000000000000000000000000000000000000000]),
  (936383567134000, [478310122103000000000000000000000000000000000000000000000000000000000000000000000000000000, 497075307211000000000000000000000000000000000000000000000000000000000000000000000000000000, 517510425947000000000000000000000000000000000000000000000000000000000000000000000000000000, 538959390804000000000000000000000000000000000000000000000000000000000000000000000000000000, 561242044488000000000000000000000000000000000000000000000000000000000000000000000000000000, 584297448230000000000000000000000000000000000000000000000000000000000000000000000000000000, 608079433727000000000000000000000000000000000000000000000000000000000000000000000000000000, 632543282909000000000000000000000000000000000000000000000000000000000000000000000000000000, 657649427993000000000000000000000000000000000000000000000000000000000000000000000000000000, 683364947047000000000000000000000000000000000000000000000000000000000000000000000000000000, 709662012458000000000000000000000000000000000000000000000000000000000000000000000000000000, 736515372284000000000000000000000000000000000000000000000000000000000000000000000000000000, 763900171364000000000000000000000000000000000000000000000000000000000000000000000000000000, 791790524821000000000000000000000000000000000000000000000000000000000000000000000000000000, 820158803263000000000000000000000000000000000000000000000000000000000000000000000000000000, 848975444086000000000000000000000000000000000000000000000000000000000000000000000000000000, 878209098886000000000000000000000000000000000000000000000000000000000000000000000000000000, 907826968103000000000000000000000000000000000000000000000000000000000000000000000000000000, 937795219761000000000000000000000000000000000000000000000000000000000000000000000000000000, 968079426459000000000000000000000000000000000000000000000000000000000000000000000000000000, 998644981598000000000000000000000000000000000000000000000000000000000000000000000000000000, 1029457473770000000000000000000000000000000000000000000000000000000000000000000000000000000, 1060483009860000000000000000000000000000000000000000000000000000000000000000000000000000000, 1091688484520000000000000000000000000000000000000000000000000000000000000000000000000000000, 1123041797730000000000000000000000000000000000000000000000000000000000000000000000000000000, 1154512024640000000000000000000000000000000000000000000000000000000000000000000000000000000, 1186069542820000000000000000000000000000000000000000000000000000000000000000000000000000000, 1217686122410000000000000000000000000000000000000000000000000000000000000000000000000000000, 1249334984600000000000000000000000000000000000000000000000000000000000000000000000000000000, 1280990833500000000000000000000000000000000000000000000000000000000000000000000000000000000, 1312629865980000000000000000000000000000000000000000000000000000000000000000000000000000000, 1344229763650000000000000000000000000000000000000000000000000000000000000000000000000000000, 1375769670430000000000000000000000000000000000000000000000000000000000000000000000000000000, 1407230158800000000000000000000000000000000000000000000000000000000000000000000000000000000, 1438593187500000000000000000000000000000000000000000000000000000000000000000000000000000000, 1469842052590000000000000000000000000000000000000000000000000000000000000000000000000000000, 1500961334040000000000000000000000000000000000000000000000000000000000000000000000000000000, 1531936839080000000000000000000000000000000000000000000000000000000000000000000000000000000, 1562755543800000000000000000000000000000000000000000000000000000000000000000000000000000000, 1593405533840000000000000000000000000000000000000000000000000000000000000000000000000000000]),
  (938487575150000, [381048863613000000000000000000000000000000000000000000000000000000000000000000000000000000, 402174525369000000000000000000000000000000000000000000000000000000000000000000000000000000, 423699981895000000000000000000000000000000000000000000000000000000000000000000000000000000, 445411530958000000000000000000000000000000000000000000000000000000000000000000000000000000, 467379029413000000000000000000000000000000000000000000000000000000000000000000000000000000, 489688557146000000000000000000000000000000000000000000000000000000000000000000000000000000, 512386903949000000000000000000000000000000000000000000000000000000000000000000000000000000, 535493622930000000000000000000000000000000000000000000000000000000000000000000000000000000, 559017439558000000000000000000000000000000000000000000000000000000000000000000000000000000, 582964074409000000000000000000000000000000000000000000000000000000000000000000000000000000, 607337967574000000000000000000000000000000000000000000000000000000000000000000000000000000, 632141577303000000000000000000000000000000000000000000000000000000000000000000000000000000, 657374283523000000000000000000000000000000000000000000000000000000000000000000000000000000, 683031643619000000000000000000000000000000000000000000000000000000000000000000000000000000, 709105126916000000000000000000000000000000000000000000000000000000000000000000000000000000, 735582234278000000000000000000000000000000000000000000000000000000000000000000000000000000, 762446867591000000000000000000000000000000000000000000000000000000000000000000000000000000, 789679834035000000000000000000000000000000000000000000000000000000000000000000000000000000, 817259402974000000000000000000000000000000000000000000000000000000000000000000000000000000, 845161862364000000000000000000000000000000000000000000000000000000000000000000000000000000, 873362043061000000000000000000000000000000000000000000000000000000000000000000000000000000, 901833794074000000000000000000000000000000000000000000000000000000000000000000000000000000, 930550401343000000000000000000000000000000000000000000000000000000000000000000000000000000, 959484948499000000000000000000000000000000000000000000000000000000000000000000000000000000, 988610621630000000000000000000000000000000000000000000000000000000000000000000000000000000, 1017900962040000000000000000000000000000000000000000000000000000000000000000000000000000000, 1047330071930000000000000000000000000000000000000000000000000000000000000000000000000000000, 1076872778340000000000000000000000000000000000000000000000000000000000000000000000000000000, 1106504760560000000000000000000000000000000000000000000000000000000000000000000000000000000, 1136202646100000000000000000000000000000000000000000000000000000000000000000000000000000000, 1165944079690000000000000000000000000000000000000000000000000000000000000000000000000000000, 1195707769680000000000000000000000000000000000000000000000000000000000000000000000000000000, 1225473515350000000000000000000000000000000000000000000000000000000000000000000000000000000, 1255222218550000000000000000000000000000000000000000000000000000000000000000000000000000000, 1284935882430000000000000000000000000000000000000000000000000000000000000000000000000000000, 1314597599780000000000000000000000000000000000000000000000000000000000000000000000000000000, 1344191533050000000000000000000000000000000000000000000000000000000000000000000000000000000, 1373702887810000000000000000000000000000000000000000000000000000000000000000000000000000000, 1403117881270000000000000000000000000000000000000000000000000000000000000000000000000000000, 1432423707050000000000000000000000000000000000000000000000000000000000000000000000000000000]),
  (940591583166000, [289779441655000000000000000000000000000000000000000000000000000000000000000000000000000000, 314751427859000000000000000000000000000000000000000000000000000000000000000000000000000000, 338083165225000000000000000000000000000000000000000000000000000000000000000000000000000000, 360509984964000000000000000000000000000000000000000000000000000000000000000000000000000000, 382508006450000000000000000000000000000000000000000000000000000000000000000000000000000000, 404370164126000000000000000000000000000000000000000000000000000000000000000000000000000000, 426262146106000000000000000000000000000000000000000000000000000000000000000000000000000000, 448279421059000000000000000000000000000000000000000000000000000000000000000000000000000000, 470483775833000000000000000000000000000000000000000000000000000000000000000000000000000000, 492920800024000000000000000000000000000000000000000000000000000000000000000000000000000000, 515626593821000000000000000000000000000000000000000000000000000000000000000000000000000000, 538629828670000000000000000000000000000000000000000000000000000000000000000000000000000000, 561952274687000000000000000000000000000000000000000000000000000000000000000000000000000000, 585609050649000000000000000000000000000000000000000000000000000000000000000000000000000000, 609608983246000000000000000000000000000000000000000000000000000000000000000000000000000000, 633955127261000000000000000000000000000000000000000000000000000000000000000000000000000000, 658645398054000000000000000000000000000000000000000000000000000000000000000000000000000000, 683673254736000000000000000000000000000000000000000000000000000000000000000000000000000000, 709028385357000000000000000000000000000000000000000000000000000000000000000000000000000000, 734697361805000000000000000000000000000000000000000000000000000000000000000000000000000000, 760664245535000000000000000000000000000000000000000000000000000000000000000000000000000000, 786911134700000000000000000000000000000000000000000000000000000000000000000000000000000000, 813418649514000000000000000000000000000000000000000000000000000000000000000000000000000000, 840166356524000000000000000000000000000000000000000000000000000000000000000000000000000000, 867133134825000000000000000000000000000000000000000000000000000000000000000000000000000000, 894297488503000000000000000000000000000000000000000000000000000000000000000000000000000000, 921637810194000000000000000000000000000000000000000000000000000000000000000000000000000000, 949132600851000000000000000000000000000000000000000000000000000000000000000000000000000000, 976760650696000000000000000000000000000000000000000000000000000000000000000000000000000000, 1004501186120000000000000000000000000000000000000000000000000000000000000000000000000000000, 1032333986960000000000000000000000000000000000000000000000000000000000000000000000000000000, 1060239478100000000000000000000000000000000000000000000000000000000000000000000000000000000, 1088198799200000000000000000000000000000000000000000000000000000000000000000000000000000000, 1116193855650000000000000000000000000000000000000000000000000000000000000000000000000000000, 1144207353690000000000000000000000000000000000000000000000000000000000000000000000000000000, 1172222822250000000000000000000000000000000000000000000000000000000000000000000000000000000, 1200224623680000000000000000000000000000000000000000000000000000000000000000000000000000000, 1228197955330000000000000000000000000000000000000000000000000000000000000000000000000000000, 1256128843610000000000000000000000000000000000000000000000000000000000000000000000000000000, 1284004131940000000000000000000000000000000000000000000000000000000000000000000000000000000]),
  (942695591182000, [207890608393000000000000000000000000000000000000000000000000000000000000000000000000000000, 236682575185000000000000000000000000000000000000000000000000000000000000000000000000000000, 261736926426000000000000000000000000000000000000000000000000000000000000000000000000000000, 284836760974000000000000000000000000000000000000000000000000000000000000000000000000000000, 306871889857000000000000000000000000000000000000000000000000000000000000000000000000000000, 328336250871000000000000000000000000000000000000000000000000000000000000000000000000000000, 349507524213000000000000000000000000000000000000000000000000000000000000000000000000000000, 370550687206000000000000000000000000000000000000000000000000000000000000000000000000000000, 391574692543000000000000000000000000000000000000000000000000000000000000000000000000000000, 412659563690000000000000000000000000000000000000000000000000000000000000000000000000000000, 433868091499000000000000000000000000000000000000000000000000000000000000000000000000000000, 455250676743000000000000000000000000000000000000000000000000000000000000000000000000000000, 476847491808000000000000000000000000000000000000000000000000000000000000000000000000000000, 498689721101000000000000000000000000000000000000000000000000000000000000000000000000000000, 520800529264000000000000000000000000000000000000000000000000000000000000000000000000000000, 543195957446000000000000000000000000000000000000000000000000000000000000000000000000000000, 565885788372000000000000000000000000000000000000000000000000000000000000000000000000000000, 588874374323000000000000000000000000000000000000000000000000000000000000000000000000000000, 612161414535000000000000000000000000000000000000000000000000000000000000000000000000000000, 635742671912000000000000000000000000000000000000000000000000000000000000000000000000000000, 659610623999000000000000000000000000000000000000000000000000000000000000000000000000000000, 683755047163000000000000000000000000000000000000000000000000000000000000000000000000000000, 708163535657000000000000000000000000000000000000000000000000000000000000000000000000000000, 732821958907000000000000000000000000000000000000000000000000000000000000000000000000000000, 757714861272000000000000000000000000000000000000000000000000000000000000000000000000000000, 782825808983000000000000000000000000000000000000000000000000000000000000000000000000000000, 808137689084000000000000000000000000000000000000000000000000000000000000000000000000000000, 833632965162000000000000000000000000000000000000000000000000000000000000000000000000000000, 859293894416000000000000000000000000000000000000000000000000000000000000000000000000000000, 885102710425000000000000000000000000000000000000000000000000000000000000000000000000000000, 911041775601000000000000000000000000000000000000000000000000000000000000000000000000000000, 937093707040000000000000000000000000000000000000000000000000000000000000000000000000000000, 963241479133000000000000000000000000000000000000000000000000000000000000000000000000000000, 989468505979000000000000000000000000000000000000000000000000000000000000000000000000000000, 1015758706320000000000000000000000000000000000000000000000000000000000000000000000000000000, 1042096553480000000000000000000000000000000000000000000000000000000000000000000000000000000, 1068467112360000000000000000000000000000000000000000000000000000000000000000000000000000000, 1094856065600000000000000000000000000000000000000000000000000000000000000000000000000000000, 1121249730350000000000000000000000000000000000000000000000000000000000000000000000000000000, 1147635067280000000000000000000000000000000000000000000000000000000000000000000000000000000]),
  (944799599198000, [139082386550000000000000000000000000000000000000000000000000000000000000000000000000000000, 169894531584000000000000000000000000000000000000000000000000000000000000000000000000000000, 195745985416000000000000000000000000000000000000000000000000000000000000000000000000000000, 218984609083000000000000000000000000000000000000000000000000000000000000000000000000000000, 240737867130000000000000000000000000000000000000000000000000000000000000000000000000000000, 261620021071000000000000000000000000000000000000000000000000000000000000000000000000000000, 281978180402000000000000000000000000000000000000000000000000000000000000000000000000000000, 302021497150000000000000000000000000000000000000000000000000000000000000000000000000000000, 321889336745000000000000000000000000000000000000000000000000000000000000000000000000000000, 341684127766000000000000000000000000000000000000000000000000000000000000000000000000000000, 361486193527000000000000000000000000000000000000000000000000000000000000000000000000000000, 381360408402000000000000000000000000000000000000000000000000000000000000000000000000000000, 401359445774000000000000000000000000000000000000000000000000000000000000000000000000000000, 421525676092000000000000000000000000000000000000000000000000000000000000000000000000000000, 441892529495000000000000000000000000000000000000000000000000000000000000000000000000000000, 462485622042000000000000000000000000000000000000000000000000000000000000000000000000000000, 483323748349000000000000000000000000000000000000000000000000000000000000000000000000000000, 504419774705000000000000000000000000000000000000000000000000000000000000000000000000000000, 525781445136000000000000000000000000000000000000000000000000000000000000000000000000000000, 547412107025000000000000000000000000000000000000000000000000000000000000000000000000000000, 569311361810000000000000000000000000000000000000000000000000000000000000000000000000000000, 591475646181000000000000000000000000000000000000000000000000000000000000000000000000000000, 613898749184000000000000000000000000000000000000000000000000000000000000000000000000000000, 636572270532000000000000000000000000000000000000000000000000000000000000000000000000000000, 659486025199000000000000000000000000000000000000000000000000000000000000000000000000000000, 682628399103000000000000000000000000000000000000000000000000000000000000000000000000000000, 705986660432000000000000000000000000000000000000000000000000000000000000000000000000000000, 729547230850000000000000000000000000000000000000000000000000000000000000000000000000000000, 753295920584000000000000000000000000000000000000000000000000000000000000000000000000000000, 777218131093000000000000000000000000000000000000000000000000000000000000000000000000000000, 801299028756000000000000000000000000000000000000000000000000000000000000000000000000000000, 825523692759000000000000000000000000000000000000000000000000000000000000000000000000000000, 849877240103000000000000000000000000000000000000000000000000000000000000000000000000000000, 874344930379000000000000000000000000000000000000000000000000000000000000000000000000000000, 898912252764000000000000000000000000000000000000000000000000000000000000000000000000000000, 923564997410000000000000000000000000000000000000000000000000000000000000000000000000000000, 948289313215000000000000000000000000000000000000000000000000000000000000000000000000000000, 973071753754000000000000000000000000000000000000000000000000000000000000000000000000000000, 997899312939000000000000000000000000000000000000000000000000000000000000000000000000000000, 1022759451850000000000000000000000000000000000000000000000000000000000000000000000000000000])]
noncomputable def ttSpec18 : List (Nat × List Nat) := [
  (946903607214000, [85859117035000000000000000000000000000000000000000000000000000000000000000000000000000000, 115710585622000000000000000000000000000000000000000000000000000000000000000000000000000000, 140842605322000000000000000000000000000000000000000000000000000000000000000000000000000000, 163329168486000000000000000000000000000000000000000000000000000000000000000000000000000000, 184239767304000000000000000000000000000000000000000000000000000000000000000000000000000000, 204177777242000000000000000000000000000000000000000000000000000000000000000000000000000000, 223492512416000000000000000000000000000000000000000000000000000000000000000000000000000000, 242398681619000000000000000000000000000000000000000000000000000000000000000000000000000000, 261041642654000000000000000000000000000000000000000000000000000000000000000000000000000000, 279529552359000000000000000000000000000000000000000000000000000000000000000000000000000000, 297948183304000000000000000000000000000000000000000000000000000000000000000000000000000000, 316367725153000000000000000000000000000000000000000000000000000000000000000000000000000000, 334846168863000000000000000000000000000000000000000000000000000000000000000000000000000000, 353431289422000000000000000000000000000000000000000000000000000000000000000000000000000000, 372162041242000000000000000000000000000000000000000000000000000000000000000000000000000000, 391069677185000000000000000000000000000000000000000000000000000000000000000000000000000000, 410178707428000000000000000000000000000000000000000000000000000000000000000000000000000000, 429507743692000000000000000000000000000000000000000000000000000000000000000000000000000000, 449070250006000000000000000000000000000000000000000000000000000000000000000000000000000000, 468875212751000000000000000000000000000000000000000000000000000000000000000000000000000000, 488927739524000000000000000000000000000000000000000000000000000000000000000000000000000000, 509229594641000000000000000000000000000000000000000000000000000000000000000000000000000000, 529779677905000000000000000000000000000000000000000000000000000000000000000000000000000000, 550574452315000000000000000000000000000000000000000000000000000000000000000000000000000000, 571608325610000000000000000000000000000000000000000000000000000000000000000000000000000000, 592873989926000000000000000000000000000000000000000000000000000000000000000000000000000000, 614362723396000000000000000000000000000000000000000000000000000000000000000000000000000000, 636064657111000000000000000000000000000000000000000000000000000000000000000000000000000000, 657969010603000000000000000000000000000000000000000000000000000000000000000000000000000000, 680064298746000000000000000000000000000000000000000000000000000000000000000000000000000000, 702338512768000000000000000000000000000000000000000000000000000000000000000000000000000000, 724779277876000000000000000000000000000000000000000000000000000000000000000000000000000000, 747373989816000000000000000000000000000000000000000000000000000000000000000000000000000000, 770109932526000000000000000000000000000000000000000000000000000000000000000000000000000000, 792974378871000000000000000000000000000000000000000000000000000000000000000000000000000000, 815954676294000000000000000000000000000000000000000000000000000000000000000000000000000000, 839038319062000000000000000000000000000000000000000000000000000000000000000000000000000000, 862213008645000000000000000000000000000000000000000000000000000000000000000000000000000000, 885466703627000000000000000000000000000000000000000000000000000000000000000000000000000000, 908787660401000000000000000000000000000000000000000000000000000000000000000000000000000000]),
  (949007615230000, [48458072904500000000000000000000000000000000000000000000000000000000000000000000000000000, 74367053658300000000000000000000000000000000000000000000000000000000000000000000000000000, 97133776348500000000000000000000000000000000000000000000000000000000000000000000000000000, 117853331685000000000000000000000000000000000000000000000000000000000000000000000000000000, 137254552976000000000000000000000000000000000000000000000000000000000000000000000000000000, 155796425650000000000000000000000000000000000000000000000000000000000000000000000000000000, 173759631233000000000000000000000000000000000000000000000000000000000000000000000000000000, 191322981725000000000000000000000000000000000000000000000000000000000000000000000000000000, 208611447787000000000000000000000000000000000000000000000000000000000000000000000000000000, 225720943313000000000000000000000000000000000000000000000000000000000000000000000000000000, 242729769939000000000000000000000000000000000000000000000000000000000000000000000000000000, 259703738346000000000000000000000000000000000000000000000000000000000000000000000000000000, 276698628554000000000000000000000000000000000000000000000000000000000000000000000000000000, 293761608714000000000000000000000000000000000000000000000000000000000000000000000000000000, 310932250677000000000000000000000000000000000000000000000000000000000000000000000000000000, 328243371169000000000000000000000000000000000000000000000000000000000000000000000000000000, 345721774377000000000000000000000000000000000000000000000000000000000000000000000000000000, 363388920714000000000000000000000000000000000000000000000000000000000000000000000000000000, 381261531683000000000000000000000000000000000000000000000000000000000000000000000000000000, 399352137197000000000000000000000000000000000000000000000000000000000000000000000000000000, 417669570959000000000000000000000000000000000000000000000000000000000000000000000000000000, 436219419029000000000000000000000000000000000000000000000000000000000000000000000000000000, 455004426193000000000000000000000000000000000000000000000000000000000000000000000000000000, 474024864126000000000000000000000000000000000000000000000000000000000000000000000000000000, 493278864735000000000000000000000000000000000000000000000000000000000000000000000000000000, 512762721602000000000000000000000000000000000000000000000000000000000000000000000000000000, 532471162060000000000000000000000000000000000000000000000000000000000000000000000000000000, 552397592165000000000000000000000000000000000000000000000000000000000000000000000000000000, 572534316601000000000000000000000000000000000000000000000000000000000000000000000000000000, 592872735457000000000000000000000000000000000000000000000000000000000000000000000000000000, 613403519639000000000000000000000000000000000000000000000000000000000000000000000000000000, 634116766651000000000000000000000000000000000000000000000000000000000000000000000000000000, 655002138348000000000000000000000000000000000000000000000000000000000000000000000000000000, 676048982223000000000000000000000000000000000000000000000000000000000000000000000000000000, 697246437671000000000000000000000000000000000000000000000000000000000000000000000000000000, 718583528631000000000000000000000000000000000000000000000000000000000000000000000000000000, 740049243897000000000000000000000000000000000000000000000000000000000000000000000000000000, 761632606313000000000000000000000000000000000000000000000000000000000000000000000000000000, 783322731989000000000000000000000000000000000000000000000000000000000000000000000000000000, 805108880575000000000000000000000000000000000000000000000000000000000000000000000000000000]),
  (951111623246000, [24810086158600000000000000000000000000000000000000000000000000000000000000000000000000000, 44888238446700000000000000000000000000000000000000000000000000000000000000000000000000000, 63996667143200000000000000000000000000000000000000000000000000000000000000000000000000000, 82065024299100000000000000000000000000000000000000000000000000000000000000000000000000000, 99336507285700000000000000000000000000000000000000000000000000000000000000000000000000000, 116039293939000000000000000000000000000000000000000000000000000000000000000000000000000000, 132333596129000000000000000000000000000000000000000000000000000000000000000000000000000000, 148329605452000000000000000000000000000000000000000000000000000000000000000000000000000000, 164110004729000000000000000000000000000000000000000000000000000000000000000000000000000000, 179743023028000000000000000000000000000000000000000000000000000000000000000000000000000000, 195288124232000000000000000000000000000000000000000000000000000000000000000000000000000000, 210798070323000000000000000000000000000000000000000000000000000000000000000000000000000000, 226319616731000000000000000000000000000000000000000000000000000000000000000000000000000000, 241893831665000000000000000000000000000000000000000000000000000000000000000000000000000000, 257556380452000000000000000000000000000000000000000000000000000000000000000000000000000000, 273337853084000000000000000000000000000000000000000000000000000000000000000000000000000000, 289264129361000000000000000000000000000000000000000000000000000000000000000000000000000000, 305356759862000000000000000000000000000000000000000000000000000000000000000000000000000000, 321633344831000000000000000000000000000000000000000000000000000000000000000000000000000000, 338107900133000000000000000000000000000000000000000000000000000000000000000000000000000000, 354791204757000000000000000000000000000000000000000000000000000000000000000000000000000000, 371691127682000000000000000000000000000000000000000000000000000000000000000000000000000000, 388812933610000000000000000000000000000000000000000000000000000000000000000000000000000000, 406159567864000000000000000000000000000000000000000000000000000000000000000000000000000000, 423731921062000000000000000000000000000000000000000000000000000000000000000000000000000000, 441529074282000000000000000000000000000000000000000000000000000000000000000000000000000000, 459548525433000000000000000000000000000000000000000000000000000000000000000000000000000000, 477786397576000000000000000000000000000000000000000000000000000000000000000000000000000000, 496237629924000000000000000000000000000000000000000000000000000000000000000000000000000000, 514896152296000000000000000000000000000000000000000000000000000000000000000000000000000000, 533755043833000000000000000000000000000000000000000000000000000000000000000000000000000000, 552806676783000000000000000000000000000000000000000000000000000000000000000000000000000000, 572042846230000000000000000000000000000000000000000000000000000000000000000000000000000000, 591454886641000000000000000000000000000000000000000000000000000000000000000000000000000000, 611033776092000000000000000000000000000000000000000000000000000000000000000000000000000000, 630770229085000000000000000000000000000000000000000000000000000000000000000000000000000000, 650654778791000000000000000000000000000000000000000000000000000000000000000000000000000000, 670677849585000000000000000000000000000000000000000000000000000000000000000000000000000000, 690829820684000000000000000000000000000000000000000000000000000000000000000000000000000000, 711101081659000000000000000000000000000000000000000000000000000000000000000000000000000000]),
  (953215631263000, [11449506481300000000000000000000000000000000000000000000000000000000000000000000000000000, 25342939154300000000000000000000000000000000000000000000000000000000000000000000000000000, 40163295394800000000000000000000000000000000000000000000000000000000000000000000000000000, 55022703800400000000000000000000000000000000000000000000000000000000000000000000000000000, 69718782075100000000000000000000000000000000000000000000000000000000000000000000000000000, 84236999778600000000000000000000000000000000000000000000000000000000000000000000000000000, 98599317161700000000000000000000000000000000000000000000000000000000000000000000000000000, 112831888619000000000000000000000000000000000000000000000000000000000000000000000000000000, 126962816162000000000000000000000000000000000000000000000000000000000000000000000000000000, 141022935423000000000000000000000000000000000000000000000000000000000000000000000000000000, 155045136274000000000000000000000000000000000000000000000000000000000000000000000000000000, 169062878330000000000000000000000000000000000000000000000000000000000000000000000000000000, 183108755017000000000000000000000000000000000000000000000000000000000000000000000000000000, 197213444803000000000000000000000000000000000000000000000000000000000000000000000000000000, 211405069205000000000000000000000000000000000000000000000000000000000000000000000000000000, 225708865898000000000000000000000000000000000000000000000000000000000000000000000000000000, 240147075073000000000000000000000000000000000000000000000000000000000000000000000000000000, 254738959466000000000000000000000000000000000000000000000000000000000000000000000000000000, 269500904048000000000000000000000000000000000000000000000000000000000000000000000000000000, 284446561156000000000000000000000000000000000000000000000000000000000000000000000000000000, 299587020205000000000000000000000000000000000000000000000000000000000000000000000000000000, 314930989367000000000000000000000000000000000000000000000000000000000000000000000000000000, 330484981565000000000000000000000000000000000000000000000000000000000000000000000000000000, 346253499989000000000000000000000000000000000000000000000000000000000000000000000000000000, 362239220035000000000000000000000000000000000000000000000000000000000000000000000000000000, 378443165576000000000000000000000000000000000000000000000000000000000000000000000000000000, 394864878104000000000000000000000000000000000000000000000000000000000000000000000000000000, 411502577723000000000000000000000000000000000000000000000000000000000000000000000000000000, 428353315295000000000000000000000000000000000000000000000000000000000000000000000000000000, 445413115277000000000000000000000000000000000000000000000000000000000000000000000000000000, 462677109019000000000000000000000000000000000000000000000000000000000000000000000000000000, 480139658444000000000000000000000000000000000000000000000000000000000000000000000000000000, 497794470191000000000000000000000000000000000000000000000000000000000000000000000000000000, 515634700401000000000000000000000000000000000000000000000000000000000000000000000000000000, 533653050447000000000000000000000000000000000000000000000000000000000000000000000000000000, 551841853954000000000000000000000000000000000000000000000000000000000000000000000000000000, 570193155534000000000000000000000000000000000000000000000000000000000000000000000000000000, 588698781679000000000000000000000000000000000000000000000000000000000000000000000000000000, 607350404301000000000000000000000000000000000000000000000000000000000000000000000000000000, 626139597392000000000000000000000000000000000000000000000000000000000000000000000000000000]),
  (955319639279000, [4737844357580000000000000000000000000000000000000000000000000000000000000000000000000000, 13337030210100000000000000000000000000000000000000000000000000000000000000000000000000000, 23949245031000000000000000000000000000000000000000000000000000000000000000000000000000000, 35451935988900000000000000000000000000000000000000000000000000000000000000000000000000000, 47375622172800000000000000000000000000000000000000000000000000000000000000000000000000000, 59520662362300000000000000000000000000000000000000000000000000000000000000000000000000000, 71789162476600000000000000000000000000000000000000000000000000000000000000000000000000000, 84127921317100000000000000000000000000000000000000000000000000000000000000000000000000000, 96510068910600000000000000000000000000000000000000000000000000000000000000000000000000000, 108926784422000000000000000000000000000000000000000000000000000000000000000000000000000000, 121381523763000000000000000000000000000000000000000000000000000000000000000000000000000000, 133885510868000000000000000000000000000000000000000000000000000000000000000000000000000000, 146454378173000000000000000000000000000000000000000000000000000000000000000000000000000000, 159105820359000000000000000000000000000000000000000000000000000000000000000000000000000000, 171858038327000000000000000000000000000000000000000000000000000000000000000000000000000000, 184728747562000000000000000000000000000000000000000000000000000000000000000000000000000000, 197734568647000000000000000000000000000000000000000000000000000000000000000000000000000000, 210890669216000000000000000000000000000000000000000000000000000000000000000000000000000000, 224210569449000000000000000000000000000000000000000000000000000000000000000000000000000000, 237706053980000000000000000000000000000000000000000000000000000000000000000000000000000000, 251387153587000000000000000000000000000000000000000000000000000000000000000000000000000000, 265262173091000000000000000000000000000000000000000000000000000000000000000000000000000000, 279337750118000000000000000000000000000000000000000000000000000000000000000000000000000000, 293618934406000000000000000000000000000000000000000000000000000000000000000000000000000000, 308109280559000000000000000000000000000000000000000000000000000000000000000000000000000000, 322810949161000000000000000000000000000000000000000000000000000000000000000000000000000000, 337724812520000000000000000000000000000000000000000000000000000000000000000000000000000000, 352850562206000000000000000000000000000000000000000000000000000000000000000000000000000000, 368186816270000000000000000000000000000000000000000000000000000000000000000000000000000000, 383731224464000000000000000000000000000000000000000000000000000000000000000000000000000000, 399480570246000000000000000000000000000000000000000000000000000000000000000000000000000000, 415430868621000000000000000000000000000000000000000000000000000000000000000000000000000000, 431577459152000000000000000000000000000000000000000000000000000000000000000000000000000000, 447915093695000000000000000000000000000000000000000000000000000000000000000000000000000000, 464438018556000000000000000000000000000000000000000000000000000000000000000000000000000000, 481140050953000000000000000000000000000000000000000000000000000000000000000000000000000000, 498014649742000000000000000000000000000000000000000000000000000000000000000000000000000000, 515054980481000000000000000000000000000000000000000000000000000000000000000000000000000000, 532253974975000000000000000000000000000000000000000000000000000000000000000000000000000000, 549604385489000000000000000000000000000000000000000000000000000000000000000000000000000000]),
  (957423647295000, [1750614828480000000000000000000000000000000000000000000000000000000000000000000000000000, 6523666884710000000000000000000000000000000000000000000000000000000000000000000000000000, 13539691538900000000000000000000000000000000000000000000000000000000000000000000000000000, 21913380589600000000000000000000000000000000000000000000000000000000000000000000000000000, 31125167829600000000000000000000000000000000000000000000000000000000000000000000000000000, 40886494885200000000000000000000000000000000000000000000000000000000000000000000000000000, 51023968222700000000000000000000000000000000000000000000000000000000000000000000000000000, 61426388217200000000000000000000000000000000000000000000000000000000000000000000000000000, 72022397659600000000000000000000000000000000000000000000000000000000000000000000000000000, 82768545134300000000000000000000000000000000000000000000000000000000000000000000000000000, 93641014666300000000000000000000000000000000000000000000000000000000000000000000000000000, 104629412667000000000000000000000000000000000000000000000000000000000000000000000000000000, 115732185095000000000000000000000000000000000000000000000000000000000000000000000000000000, 126953356374000000000000000000000000000000000000000000000000000000000000000000000000000000, 138300273350000000000000000000000000000000000000000000000000000000000000000000000000000000, 149782071321000000000000000000000000000000000000000000000000000000000000000000000000000000, 161408640533000000000000000000000000000000000000000000000000000000000000000000000000000000, 173189933480000000000000000000000000000000000000000000000000000000000000000000000000000000, 185135503374000000000000000000000000000000000000000000000000000000000000000000000000000000, 197254200400000000000000000000000000000000000000000000000000000000000000000000000000000000, 209553977051000000000000000000000000000000000000000000000000000000000000000000000000000000, 222041770069000000000000000000000000000000000000000000000000000000000000000000000000000000, 234723437107000000000000000000000000000000000000000000000000000000000000000000000000000000, 247603733003000000000000000000000000000000000000000000000000000000000000000000000000000000, 260686314975000000000000000000000000000000000000000000000000000000000000000000000000000000, 273973768993000000000000000000000000000000000000000000000000000000000000000000000000000000, 287467651524000000000000000000000000000000000000000000000000000000000000000000000000000000, 301168542247000000000000000000000000000000000000000000000000000000000000000000000000000000, 315076104300000000000000000000000000000000000000000000000000000000000000000000000000000000, 329189149362000000000000000000000000000000000000000000000000000000000000000000000000000000, 343505705460000000000000000000000000000000000000000000000000000000000000000000000000000000, 358023085808000000000000000000000000000000000000000000000000000000000000000000000000000000, 372737957356000000000000000000000000000000000000000000000000000000000000000000000000000000, 387646408042000000000000000000000000000000000000000000000000000000000000000000000000000000, 402744011945000000000000000000000000000000000000000000000000000000000000000000000000000000, 418025891769000000000000000000000000000000000000000000000000000000000000000000000000000000, 433486778225000000000000000000000000000000000000000000000000000000000000000000000000000000, 449121066051000000000000000000000000000000000000000000000000000000000000000000000000000000, 464922866469000000000000000000000000000000000000000000000000000000000000000000000000000000, 480886056024000000000000000000000000000000000000000000000000000000000000000000000000000000]),
  (959527655311000, [575647937870000000000000000000000000000000000000000000000000000000000000000000000000000, 2958842475320000000000000000000000000000000000000000000000000000000000000000000000000000, 7244125700680000000000000000000000000000000000000000000000000000000000000000000000000000, 12975043128000000000000000000000000000000000000000000000000000000000000000000000000000000, 19746222331900000000000000000000000000000000000000000000000000000000000000000000000000000, 27275923159500000000000000000000000000000000000000000000000000000000000000000000000000000, 35368573467600000000000000000000000000000000000000000000000000000000000000000000000000000, 43885244560800000000000000000000000000000000000000000000000000000000000000000000000000000, 52727746479700000000000000000000000000000000000000000000000000000000000000000000000000000, 61828488877600000000000000000000000000000000000000000000000000000000000000000000000000000, 71142658205300000000000000000000000000000000000000000000000000000000000000000000000000000, 80641960769500000000000000000000000000000000000000000000000000000000000000000000000000000, 90309786337300000000000000000000000000000000000000000000000000000000000000000000000000000, 100137614526000000000000000000000000000000000000000000000000000000000000000000000000000000, 110122416745000000000000000000000000000000000000000000000000000000000000000000000000000000, 120264804980000000000000000000000000000000000000000000000000000000000000000000000000000000, 130567719182000000000000000000000000000000000000000000000000000000000000000000000000000000, 141035495545000000000000000000000000000000000000000000000000000000000000000000000000000000, 151673202757000000000000000000000000000000000000000000000000000000000000000000000000000000, 162486167656000000000000000000000000000000000000000000000000000000000000000000000000000000, 173479636273000000000000000000000000000000000000000000000000000000000000000000000000000000, 184658533104000000000000000000000000000000000000000000000000000000000000000000000000000000, 196027292780000000000000000000000000000000000000000000000000000000000000000000000000000000, 207589745948000000000000000000000000000000000000000000000000000000000000000000000000000000, 219349046213000000000000000000000000000000000000000000000000000000000000000000000000000000, 231307628496000000000000000000000000000000000000000000000000000000000000000000000000000000, 243467191514000000000000000000000000000000000000000000000000000000000000000000000000000000, 255828698769000000000000000000000000000000000000000000000000000000000000000000000000000000, 268392393682000000000000000000000000000000000000000000000000000000000000000000000000000000, 281157825352000000000000000000000000000000000000000000000000000000000000000000000000000000, 294123882168000000000000000000000000000000000000000000000000000000000000000000000000000000, 307288831007000000000000000000000000000000000000000000000000000000000000000000000000000000, 320650360196000000000000000000000000000000000000000000000000000000000000000000000000000000, 334205624771000000000000000000000000000000000000000000000000000000000000000000000000000000, 347951292843000000000000000000000000000000000000000000000000000000000000000000000000000000, 361883592131000000000000000000000000000000000000000000000000000000000000000000000000000000, 375998355921000000000000000000000000000000000000000000000000000000000000000000000000000000, 390291067874000000000000000000000000000000000000000000000000000000000000000000000000000000, 404756905236000000000000000000000000000000000000000000000000000000000000000000000000000000, 419390780137000000000000000000000000000000000000000000000000000000000000000000000000000000]),
  (961631663327000, [168000672331000000000000000000000000000000000000000000000000000000000000000000000000000, 1241932582530000000000000000000000000000000000000000000000000000000000000000000000000000, 3662298332360000000000000000000000000000000000000000000000000000000000000000000000000000, 7350010009400000000000000000000000000000000000000000000000000000000000000000000000000000, 12083860835600000000000000000000000000000000000000000000000000000000000000000000000000000, 17654779149100000000000000000000000000000000000000000000000000000000000000000000000000000, 23890864181000000000000000000000000000000000000000000000000000000000000000000000000000000, 30655675201000000000000000000000000000000000000000000000000000000000000000000000000000000, 37844038456800000000000000000000000000000000000000000000000000000000000000000000000000000, 45377352209300000000000000000000000000000000000000000000000000000000000000000000000000000, 53198543846600000000000000000000000000000000000000000000000000000000000000000000000000000, 61267255890600000000000000000000000000000000000000000000000000000000000000000000000000000, 69555713830600000000000000000000000000000000000000000000000000000000000000000000000000000, 78045424209800000000000000000000000000000000000000000000000000000000000000000000000000000, 86724646259100000000000000000000000000000000000000000000000000000000000000000000000000000, 95586498636200000000000000000000000000000000000000000000000000000000000000000000000000000, 104627554446000000000000000000000000000000000000000000000000000000000000000000000000000000, 113846799458000000000000000000000000000000000000000000000000000000000000000000000000000000, 123244856869000000000000000000000000000000000000000000000000000000000000000000000000000000, 132823407463000000000000000000000000000000000000000000000000000000000000000000000000000000, 142584753985000000000000000000000000000000000000000000000000000000000000000000000000000000, 152531493164000000000000000000000000000000000000000000000000000000000000000000000000000000, 162666269157000000000000000000000000000000000000000000000000000000000000000000000000000000, 172991589451000000000000000000000000000000000000000000000000000000000000000000000000000000, 183509689239000000000000000000000000000000000000000000000000000000000000000000000000000000, 194222433828000000000000000000000000000000000000000000000000000000000000000000000000000000, 205131251089000000000000000000000000000000000000000000000000000000000000000000000000000000, 216237087751000000000000000000000000000000000000000000000000000000000000000000000000000000, 227540384620000000000000000000000000000000000000000000000000000000000000000000000000000000, 239041066800000000000000000000000000000000000000000000000000000000000000000000000000000000, 250738545721000000000000000000000000000000000000000000000000000000000000000000000000000000, 262631730357000000000000000000000000000000000000000000000000000000000000000000000000000000, 274719045500000000000000000000000000000000000000000000000000000000000000000000000000000000, 286998455315000000000000000000000000000000000000000000000000000000000000000000000000000000, 299467490728000000000000000000000000000000000000000000000000000000000000000000000000000000, 312123279440000000000000000000000000000000000000000000000000000000000000000000000000000000, 324962577593000000000000000000000000000000000000000000000000000000000000000000000000000000, 337981802295000000000000000000000000000000000000000000000000000000000000000000000000000000, 351177064350000000000000000000000000000000000000000000000000000000000000000000000000000000, 364544200690000000000000000000000000000000000000000000000000000000000000000000000000000000]),
  (963735671343000, [43422692319200000000000000000000000000000000000000000000000000000000000000000000000000, 481638593989000000000000000000000000000000000000000000000000000000000000000000000000000, 1747229213780000000000000000000000000000000000000000000000000000000000000000000000000000, 3979027985900000000000000000000000000000000000000000000000000000000000000000000000000000, 7126454790570000000000000000000000000000000000000000000000000000000000000000000000000000, 11078346082100000000000000000000000000000000000000000000000000000000000000000000000000000, 15714558048700000000000000000000000000000000000000000000000000000000000000000000000000000, 20924136062300000000000000000000000000000000000000000000000000000000000000000000000000000, 26612310574000000000000000000000000000000000000000000000000000000000000000000000000000000, 32702249822900000000000000000000000000000000000000000000000000000000000000000000000000000, 39133908004700000000000000000000000000000000000000000000000000000000000000000000000000000, 45861574211500000000000000000000000000000000000000000000000000000000000000000000000000000, 52851143943900000000000000000000000000000000000000000000000000000000000000000000000000000, 60077621711800000000000000000000000000000000000000000000000000000000000000000000000000000, 67523032127000000000000000000000000000000000000000000000000000000000000000000000000000000, 75174749693000000000000000000000000000000000000000000000000000000000000000000000000000000, 83024191843700000000000000000000000000000000000000000000000000000000000000000000000000000, 91065804754100000000000000000000000000000000000000000000000000000000000000000000000000000, 99296277200000000000000000000000000000000000000000000000000000000000000000000000000000000, 107713929672000000000000000000000000000000000000000000000000000000000000000000000000000000, 116318237956000000000000000000000000000000000000000000000000000000000000000000000000000000, 125109460419000000000000000000000000000000000000000000000000000000000000000000000000000000, 134088346014000000000000000000000000000000000000000000000000000000000000000000000000000000, 143255905733000000000000000000000000000000000000000000000000000000000000000000000000000000, 152613234498000000000000000000000000000000000000000000000000000000000000000000000000000000, 162161373485000000000000000000000000000000000000000000000000000000000000000000000000000000, 171901205108000000000000000000000000000000000000000000000000000000000000000000000000000000, 181833374563000000000000000000000000000000000000000000000000000000000000000000000000000000, 191958232982000000000000000000000000000000000000000000000000000000000000000000000000000000, 202275798231000000000000000000000000000000000000000000000000000000000000000000000000000000, 212785730080000000000000000000000000000000000000000000000000000000000000000000000000000000, 223487317009000000000000000000000000000000000000000000000000000000000000000000000000000000, 234379472418000000000000000000000000000000000000000000000000000000000000000000000000000000, 245460738321000000000000000000000000000000000000000000000000000000000000000000000000000000, 256729294960000000000000000000000000000000000000000000000000000000000000000000000000000000, 268182974984000000000000000000000000000000000000000000000000000000000000000000000000000000, 279819281100000000000000000000000000000000000000000000000000000000000000000000000000000000, 291635406235000000000000000000000000000000000000000000000000000000000000000000000000000000, 303628255457000000000000000000000000000000000000000000000000000000000000000000000000000000, 315794468999000000000000000000000000000000000000000000000000000000000000000000000000000000]),
  (965839679359000, [9922584307770000000000000000000000000000000000000000000000000000000000000000000000000, 172353171844000000000000000000000000000000000000000000000000000000000000000000000000000, 785786381470000000000000000000000000000000000000000000000000000000000000000000000000000, 2056727389320000000000000000000000000000000000000000000000000000000000000000000000000000, 4047065380890000000000000000000000000000000000000000000000000000000000000000000000000000, 6734567335000000000000000000000000000000000000000000000000000000000000000000000000000000, 10058929083900000000000000000000000000000000000000000000000000000000000000000000000000000, 13946862647600000000000000000000000000000000000000000000000000000000000000000000000000000, 18325798122600000000000000000000000000000000000000000000000000000000000000000000000000000, 23130734550200000000000000000000000000000000000000000000000000000000000000000000000000000, 28306770972700000000000000000000000000000000000000000000000000000000000000000000000000000, 33809209508500000000000000000000000000000000000000000000000000000000000000000000000000000, 39602530172000000000000000000000000000000000000000000000000000000000000000000000000000000, 45658993017000000000000000000000000000000000000000000000000000000000000000000000000000000, 51957241023600000000000000000000000000000000000000000000000000000000000000000000000000000, 58481055743000000000000000000000000000000000000000000000000000000000000000000000000000000, 65218306566200000000000000000000000000000000000000000000000000000000000000000000000000000, 72160085973700000000000000000000000000000000000000000000000000000000000000000000000000000, 79300006048400000000000000000000000000000000000000000000000000000000000000000000000000000, 86633628596900000000000000000000000000000000000000000000000000000000000000000000000000000, 94158003799200000000000000000000000000000000000000000000000000000000000000000000000000000, 101871296460000000000000000000000000000000000000000000000000000000000000000000000000000000, 109772483040000000000000000000000000000000000000000000000000000000000000000000000000000000, 117861106137000000000000000000000000000000000000000000000000000000000000000000000000000000, 126137075919000000000000000000000000000000000000000000000000000000000000000000000000000000, 134600510150000000000000000000000000000000000000000000000000000000000000000000000000000000, 143251606144000000000000000000000000000000000000000000000000000000000000000000000000000000, 152090539259000000000000000000000000000000000000000000000000000000000000000000000000000000, 161117383510000000000000000000000000000000000000000000000000000000000000000000000000000000, 170332050651000000000000000000000000000000000000000000000000000000000000000000000000000000, 179734244692000000000000000000000000000000000000000000000000000000000000000000000000000000, 189323429266000000000000000000000000000000000000000000000000000000000000000000000000000000, 199098805696000000000000000000000000000000000000000000000000000000000000000000000000000000, 209059299893000000000000000000000000000000000000000000000000000000000000000000000000000000, 219203556523000000000000000000000000000000000000000000000000000000000000000000000000000000, 229529939083000000000000000000000000000000000000000000000000000000000000000000000000000000, 240036534744000000000000000000000000000000000000000000000000000000000000000000000000000000, 250721162973000000000000000000000000000000000000000000000000000000000000000000000000000000, 261581387094000000000000000000000000000000000000000000000000000000000000000000000000000000, 272614528091000000000000000000000000000000000000000000000000000000000000000000000000000000]),
  (967943687375000, [2001872201380000000000000000000000000000000000000000000000000000000000000000000000000, 56849245770100000000000000000000000000000000000000000000000000000000000000000000000000, 332832704933000000000000000000000000000000000000000000000000000000000000000000000000000, 1014259458200000000000000000000000000000000000000000000000000000000000000000000000000000, 2211606714560000000000000000000000000000000000000000000000000000000000000000000000000000, 3963691379910000000000000000000000000000000000000000000000000000000000000000000000000000, 6262365821580000000000000000000000000000000000000000000000000000000000000000000000000000, 9073516541240000000000000000000000000000000000000000000000000000000000000000000000000000, 12351869400800000000000000000000000000000000000000000000000000000000000000000000000000000, 16050283284000000000000000000000000000000000000000000000000000000000000000000000000000000, 20124781586500000000000000000000000000000000000000000000000000000000000000000000000000000, 24536752930300000000000000000000000000000000000000000000000000000000000000000000000000000, 29253518181200000000000000000000000000000000000000000000000000000000000000000000000000000, 34248072635200000000000000000000000000000000000000000000000000000000000000000000000000000, 39498477160300000000000000000000000000000000000000000000000000000000000000000000000000000, 44987147576900000000000000000000000000000000000000000000000000000000000000000000000000000, 50700160694900000000000000000000000000000000000000000000000000000000000000000000000000000, 56626625829600000000000000000000000000000000000000000000000000000000000000000000000000000, 62758136278000000000000000000000000000000000000000000000000000000000000000000000000000000, 69088299643600000000000000000000000000000000000000000000000000000000000000000000000000000, 75612339702100000000000000000000000000000000000000000000000000000000000000000000000000000, 82326760748600000000000000000000000000000000000000000000000000000000000000000000000000000, 89229065555800000000000000000000000000000000000000000000000000000000000000000000000000000, 96317518997600000000000000000000000000000000000000000000000000000000000000000000000000000, 103590950496000000000000000000000000000000000000000000000000000000000000000000000000000000, 111048589500000000000000000000000000000000000000000000000000000000000000000000000000000000, 118689929119000000000000000000000000000000000000000000000000000000000000000000000000000000, 126514613793000000000000000000000000000000000000000000000000000000000000000000000000000000, 134522347529000000000000000000000000000000000000000000000000000000000000000000000000000000, 142712819716000000000000000000000000000000000000000000000000000000000000000000000000000000, 151085646000000000000000000000000000000000000000000000000000000000000000000000000000000000, 159640321999000000000000000000000000000000000000000000000000000000000000000000000000000000, 168376187982000000000000000000000000000000000000000000000000000000000000000000000000000000, 177292402846000000000000000000000000000000000000000000000000000000000000000000000000000000, 186387925967000000000000000000000000000000000000000000000000000000000000000000000000000000, 195661505666000000000000000000000000000000000000000000000000000000000000000000000000000000, 205111673196000000000000000000000000000000000000000000000000000000000000000000000000000000, 214736741315000000000000000000000000000000000000000000000000000000000000000000000000000000, 224534806602000000000000000000000000000000000000000000000000000000000000000000000000000000, 234503754817000000000000000000000000000000000000000000000000000000000000000000000000000000]),
  (970047695391000, [356184326093000000000000000000000000000000000000000000000000000000000000000000000000, 17268605212900000000000000000000000000000000000000000000000000000000000000000000000000, 132675052416000000000000000000000000000000000000000000000000000000000000000000000000000, 476879630101000000000000000000000000000000000000000000000000000000000000000000000000000, 1162310069750000000000000000000000000000000000000000000000000000000000000000000000000000, 2257432987970000000000000000000000000000000000000000000000000000000000000000000000000000, 3790103840450000000000000000000000000000000000000000000000000000000000000000000000000000, 5759033060980000000000000000000000000000000000000000000000000000000000000000000000000000, 8145352532720000000000000000000000000000000000000000000000000000000000000000000000000000, 10921609242600000000000000000000000000000000000000000000000000000000000000000000000000000, 14057712104600000000000000000000000000000000000000000000000000000000000000000000000000000, 17524377193700000000000000000000000000000000000000000000000000000000000000000000000000000, 21294865048600000000000000000000000000000000000000000000000000000000000000000000000000000, 25345680643100000000000000000000000000000000000000000000000000000000000000000000000000000, 29656696262600000000000000000000000000000000000000000000000000000000000000000000000000000, 34210979653400000000000000000000000000000000000000000000000000000000000000000000000000000, 38994488887600000000000000000000000000000000000000000000000000000000000000000000000000000, 43995721496800000000000000000000000000000000000000000000000000000000000000000000000000000, 49205362970400000000000000000000000000000000000000000000000000000000000000000000000000000, 54615956277500000000000000000000000000000000000000000000000000000000000000000000000000000, 60221601525700000000000000000000000000000000000000000000000000000000000000000000000000000, 66017688380200000000000000000000000000000000000000000000000000000000000000000000000000000, 72000660646700000000000000000000000000000000000000000000000000000000000000000000000000000, 78167810948700000000000000000000000000000000000000000000000000000000000000000000000000000, 84517102853700000000000000000000000000000000000000000000000000000000000000000000000000000, 91047017689800000000000000000000000000000000000000000000000000000000000000000000000000000, 97756423385900000000000000000000000000000000000000000000000000000000000000000000000000000, 104644462859000000000000000000000000000000000000000000000000000000000000000000000000000000, 111710459692000000000000000000000000000000000000000000000000000000000000000000000000000000, 118953839057000000000000000000000000000000000000000000000000000000000000000000000000000000, 126374062050000000000000000000000000000000000000000000000000000000000000000000000000000000, 133970571788000000000000000000000000000000000000000000000000000000000000000000000000000000, 141742749791000000000000000000000000000000000000000000000000000000000000000000000000000000, 149689881315000000000000000000000000000000000000000000000000000000000000000000000000000000, 157811128461000000000000000000000000000000000000000000000000000000000000000000000000000000, 166105509988000000000000000000000000000000000000000000000000000000000000000000000000000000, 174571886890000000000000000000000000000000000000000000000000000000000000000000000000000000, 183208952879000000000000000000000000000000000000000000000000000000000000000000000000000000, 192015229047000000000000000000000000000000000000000000000000000000000000000000000000000000, 200989062018000000000000000000000000000000000000000000000000000000000000000000000000000000]),
  (972151703407000, [55842346330400000000000000000000000000000000000000000000000000000000000000000000000, 4827350503780000000000000000000000000000000000000000000000000000000000000000000000000, 49742255172400000000000000000000000000000000000000000000000000000000000000000000000000, 213656509007000000000000000000000000000000000000000000000000000000000000000000000000000, 587172570262000000000000000000000000000000000000000000000000000000000000000000000000000, 1243530447150000000000000000000000000000000000000000000000000000000000000000000000000000, 2228980805460000000000000000000000000000000000000000000000000000000000000000000000000000, 3564735102680000000000000000000000000000000000000000000000000000000000000000000000000000, 5253320041650000000000000000000000000000000000000000000000000000000000000000000000000000, 7285335850160000000000000000000000000000000000000000000000000000000000000000000000000000, 9644882091500000000000000000000000000000000000000000000000000000000000000000000000000000, 12313304563000000000000000000000000000000000000000000000000000000000000000000000000000000, 15271530906300000000000000000000000000000000000000000000000000000000000000000000000000000, 18501403046300000000000000000000000000000000000000000000000000000000000000000000000000000, 21986359094700000000000000000000000000000000000000000000000000000000000000000000000000000, 25711717371800000000000000000000000000000000000000000000000000000000000000000000000000000, 29664727903100000000000000000000000000000000000000000000000000000000000000000000000000000, 33834494378100000000000000000000000000000000000000000000000000000000000000000000000000000, 38211828838800000000000000000000000000000000000000000000000000000000000000000000000000000, 42789075970800000000000000000000000000000000000000000000000000000000000000000000000000000, 47559928419200000000000000000000000000000000000000000000000000000000000000000000000000000, 52519245275900000000000000000000000000000000000000000000000000000000000000000000000000000, 57662880351800000000000000000000000000000000000000000000000000000000000000000000000000000, 62987523573000000000000000000000000000000000000000000000000000000000000000000000000000000, 68490556909600000000000000000000000000000000000000000000000000000000000000000000000000000, 74169925119200000000000000000000000000000000000000000000000000000000000000000000000000000, 80024020943500000000000000000000000000000000000000000000000000000000000000000000000000000, 86051584034300000000000000000000000000000000000000000000000000000000000000000000000000000, 92251612703200000000000000000000000000000000000000000000000000000000000000000000000000000, 98623287500000000000000000000000000000000000000000000000000000000000000000000000000000000, 105165905604000000000000000000000000000000000000000000000000000000000000000000000000000000, 111878825030000000000000000000000000000000000000000000000000000000000000000000000000000000, 118761417672000000000000000000000000000000000000000000000000000000000000000000000000000000, 125813030282000000000000000000000000000000000000000000000000000000000000000000000000000000, 133032952509000000000000000000000000000000000000000000000000000000000000000000000000000000, 140420391196000000000000000000000000000000000000000000000000000000000000000000000000000000, 147974450197000000000000000000000000000000000000000000000000000000000000000000000000000000, 155694115023000000000000000000000000000000000000000000000000000000000000000000000000000000, 163578241699000000000000000000000000000000000000000000000000000000000000000000000000000000, 171625549250000000000000000000000000000000000000000000000000000000000000000000000000000000]),
  (974255711423000, [7709195745500000000000000000000000000000000000000000000000000000000000000000000000, 1241170301000000000000000000000000000000000000000000000000000000000000000000000000000, 17531269734000000000000000000000000000000000000000000000000000000000000000000000000000, 91173899359100000000000000000000000000000000000000000000000000000000000000000000000000, 285006876402000000000000000000000000000000000000000000000000000000000000000000000000000, 662299397332000000000000000000000000000000000000000000000000000000000000000000000000000, 1273342544610000000000000000000000000000000000000000000000000000000000000000000000000000, 2151093790270000000000000000000000000000000000000000000000000000000000000000000000000000, 3312557000610000000000000000000000000000000000000000000000000000000000000000000000000000, 4762525629260000000000000000000000000000000000000000000000000000000000000000000000000000, 6497555707650000000000000000000000000000000000000000000000000000000000000000000000000000, 8509238788160000000000000000000000000000000000000000000000000000000000000000000000000000, 10786577454900000000000000000000000000000000000000000000000000000000000000000000000000000, 13317579408400000000000000000000000000000000000000000000000000000000000000000000000000000, 16090265155300000000000000000000000000000000000000000000000000000000000000000000000000000, 19093267622000000000000000000000000000000000000000000000000000000000000000000000000000000, 22316159868700000000000000000000000000000000000000000000000000000000000000000000000000000, 25749606803500000000000000000000000000000000000000000000000000000000000000000000000000000, 29385405712900000000000000000000000000000000000000000000000000000000000000000000000000000, 33216458474200000000000000000000000000000000000000000000000000000000000000000000000000000, 37236703471500000000000000000000000000000000000000000000000000000000000000000000000000000, 41441025393100000000000000000000000000000000000000000000000000000000000000000000000000000, 45825154633600000000000000000000000000000000000000000000000000000000000000000000000000000, 50385563793500000000000000000000000000000000000000000000000000000000000000000000000000000, 55119366004200000000000000000000000000000000000000000000000000000000000000000000000000000, 60024217983100000000000000000000000000000000000000000000000000000000000000000000000000000, 65098229529700000000000000000000000000000000000000000000000000000000000000000000000000000, 70339880379000000000000000000000000000000000000000000000000000000000000000000000000000000, 75747944804200000000000000000000000000000000000000000000000000000000000000000000000000000, 81321424015000000000000000000000000000000000000000000000000000000000000000000000000000000, 87059486169300000000000000000000000000000000000000000000000000000000000000000000000000000, 92961413669600000000000000000000000000000000000000000000000000000000000000000000000000000, 99026557323300000000000000000000000000000000000000000000000000000000000000000000000000000, 105254296893000000000000000000000000000000000000000000000000000000000000000000000000000000, 111644007539000000000000000000000000000000000000000000000000000000000000000000000000000000, 118195031641000000000000000000000000000000000000000000000000000000000000000000000000000000, 124906655500000000000000000000000000000000000000000000000000000000000000000000000000000000, 131778090436000000000000000000000000000000000000000000000000000000000000000000000000000000, 138808457807000000000000000000000000000000000000000000000000000000000000000000000000000000, 145996777517000000000000000000000000000000000000000000000000000000000000000000000000000000]),
  (976359719439000, [936668792857000000000000000000000000000000000000000000000000000000000000000000000, 293377626690000000000000000000000000000000000000000000000000000000000000000000000000, 5805933785130000000000000000000000000000000000000000000000000000000000000000000000000, 37042899755000000000000000000000000000000000000000000000000000000000000000000000000000, 132872628816000000000000000000000000000000000000000000000000000000000000000000000000000, 340928527652000000000000000000000000000000000000000000000000000000000000000000000000000, 706367693954000000000000000000000000000000000000000000000000000000000000000000000000000, 1265073760930000000000000000000000000000000000000000000000000000000000000000000000000000, 2041618305320000000000000000000000000000000000000000000000000000000000000000000000000000, 3050222055770000000000000000000000000000000000000000000000000000000000000000000000000000, 4296950177350000000000000000000000000000000000000000000000000000000000000000000000000000, 5782046971870000000000000000000000000000000000000000000000000000000000000000000000000000, 7501927599610000000000000000000000000000000000000000000000000000000000000000000000000000, 9450704230340000000000000000000000000000000000000000000000000000000000000000000000000000, 11621283259800000000000000000000000000000000000000000000000000000000000000000000000000000, 14006119334800000000000000000000000000000000000000000000000000000000000000000000000000000, 16597713105600000000000000000000000000000000000000000000000000000000000000000000000000000, 19388924822800000000000000000000000000000000000000000000000000000000000000000000000000000, 22373158730500000000000000000000000000000000000000000000000000000000000000000000000000000, 25544458388200000000000000000000000000000000000000000000000000000000000000000000000000000, 28897541592100000000000000000000000000000000000000000000000000000000000000000000000000000, 32427795129800000000000000000000000000000000000000000000000000000000000000000000000000000, 36131243565900000000000000000000000000000000000000000000000000000000000000000000000000000, 40004501972200000000000000000000000000000000000000000000000000000000000000000000000000000, 44044719513200000000000000000000000000000000000000000000000000000000000000000000000000000, 48249518672000000000000000000000000000000000000000000000000000000000000000000000000000000, 52616933415100000000000000000000000000000000000000000000000000000000000000000000000000000, 57145348533500000000000000000000000000000000000000000000000000000000000000000000000000000, 61833441650300000000000000000000000000000000000000000000000000000000000000000000000000000, 66680128849900000000000000000000000000000000000000000000000000000000000000000000000000000, 71684514498300000000000000000000000000000000000000000000000000000000000000000000000000000, 76845845552000000000000000000000000000000000000000000000000000000000000000000000000000000, 82163470455900000000000000000000000000000000000000000000000000000000000000000000000000000, 87636802589800000000000000000000000000000000000000000000000000000000000000000000000000000, 93265288126400000000000000000000000000000000000000000000000000000000000000000000000000000, 99048378096100000000000000000000000000000000000000000000000000000000000000000000000000000, 104985504409000000000000000000000000000000000000000000000000000000000000000000000000000000, 111076059557000000000000000000000000000000000000000000000000000000000000000000000000000000, 117319379711000000000000000000000000000000000000000000000000000000000000000000000000000000, 123714730905000000000000000000000000000000000000000000000000000000000000000000000000000000]),
  (978463727455000, [100121494344000000000000000000000000000000000000000000000000000000000000000000000, 63729402350000000000000000000000000000000000000000000000000000000000000000000000000, 1806154682590000000000000000000000000000000000000000000000000000000000000000000000000, 14324562115400000000000000000000000000000000000000000000000000000000000000000000000000, 59480689466500000000000000000000000000000000000000000000000000000000000000000000000000, 169574208749000000000000000000000000000000000000000000000000000000000000000000000000000, 380404197544000000000000000000000000000000000000000000000000000000000000000000000000000, 724909955724000000000000000000000000000000000000000000000000000000000000000000000000000, 1229586868650000000000000000000000000000000000000000000000000000000000000000000000000000, 1913497013070000000000000000000000000000000000000000000000000000000000000000000000000000, 2788863883230000000000000000000000000000000000000000000000000000000000000000000000000000, 3862336877860000000000000000000000000000000000000000000000000000000000000000000000000000, 5136367219330000000000000000000000000000000000000000000000000000000000000000000000000000, 6610434606390000000000000000000000000000000000000000000000000000000000000000000000000000, 8282040201530000000000000000000000000000000000000000000000000000000000000000000000000000, 10147466187800000000000000000000000000000000000000000000000000000000000000000000000000000, 12202334628400000000000000000000000000000000000000000000000000000000000000000000000000000, 14442005746000000000000000000000000000000000000000000000000000000000000000000000000000000, 16861852757300000000000000000000000000000000000000000000000000000000000000000000000000000, 19457444130500000000000000000000000000000000000000000000000000000000000000000000000000000, 22224657597300000000000000000000000000000000000000000000000000000000000000000000000000000, 25159744561800000000000000000000000000000000000000000000000000000000000000000000000000000, 28259358952700000000000000000000000000000000000000000000000000000000000000000000000000000, 31520561009400000000000000000000000000000000000000000000000000000000000000000000000000000, 34940803785800000000000000000000000000000000000000000000000000000000000000000000000000000, 38517908128600000000000000000000000000000000000000000000000000000000000000000000000000000, 42250030373100000000000000000000000000000000000000000000000000000000000000000000000000000, 46135625868400000000000000000000000000000000000000000000000000000000000000000000000000000, 50173410601900000000000000000000000000000000000000000000000000000000000000000000000000000, 54362322565000000000000000000000000000000000000000000000000000000000000000000000000000000, 58701484025200000000000000000000000000000000000000000000000000000000000000000000000000000, 63190165519400000000000000000000000000000000000000000000000000000000000000000000000000000, 67827752110800000000000000000000000000000000000000000000000000000000000000000000000000000, 72613712252400000000000000000000000000000000000000000000000000000000000000000000000000000, 77547569448700000000000000000000000000000000000000000000000000000000000000000000000000000, 82628876790100000000000000000000000000000000000000000000000000000000000000000000000000000, 87857194354500000000000000000000000000000000000000000000000000000000000000000000000000000, 93232069403100000000000000000000000000000000000000000000000000000000000000000000000000000, 98753019259200000000000000000000000000000000000000000000000000000000000000000000000000000, 104419516722000000000000000000000000000000000000000000000000000000000000000000000000000000]),
  (980567735471000, [9412702474290000000000000000000000000000000000000000000000000000000000000000000, 12718899710300000000000000000000000000000000000000000000000000000000000000000000000, 527648182688000000000000000000000000000000000000000000000000000000000000000000000000, 5270919762860000000000000000000000000000000000000000000000000000000000000000000000000, 25560422511100000000000000000000000000000000000000000000000000000000000000000000000000, 81477788830400000000000000000000000000000000000000000000000000000000000000000000000000, 198832757640000000000000000000000000000000000000000000000000000000000000000000000000000, 404637990834000000000000000000000000000000000000000000000000000000000000000000000000000, 723474320990000000000000000000000000000000000000000000000000000000000000000000000000000, 1175533352270000000000000000000000000000000000000000000000000000000000000000000000000000, 1776079140530000000000000000000000000000000000000000000000000000000000000000000000000000, 2535771418070000000000000000000000000000000000000000000000000000000000000000000000000000, 3461380629600000000000000000000000000000000000000000000000000000000000000000000000000000, 4556601915720000000000000000000000000000000000000000000000000000000000000000000000000000, 5822818448480000000000000000000000000000000000000000000000000000000000000000000000000000, 7259753374110000000000000000000000000000000000000000000000000000000000000000000000000000, 8865996856630000000000000000000000000000000000000000000000000000000000000000000000000000, 10639416607700000000000000000000000000000000000000000000000000000000000000000000000000000, 12577468522800000000000000000000000000000000000000000000000000000000000000000000000000000, 14677425583100000000000000000000000000000000000000000000000000000000000000000000000000000, 16936541789300000000000000000000000000000000000000000000000000000000000000000000000000000, 19352165463800000000000000000000000000000000000000000000000000000000000000000000000000000, 21921813684000000000000000000000000000000000000000000000000000000000000000000000000000000, 24643217263400000000000000000000000000000000000000000000000000000000000000000000000000000, 27514343712400000000000000000000000000000000000000000000000000000000000000000000000000000, 30533403982200000000000000000000000000000000000000000000000000000000000000000000000000000, 33698847500900000000000000000000000000000000000000000000000000000000000000000000000000000, 37009348982000000000000000000000000000000000000000000000000000000000000000000000000000000, 40463789685400000000000000000000000000000000000000000000000000000000000000000000000000000, 44061235178600000000000000000000000000000000000000000000000000000000000000000000000000000, 47800911157900000000000000000000000000000000000000000000000000000000000000000000000000000, 51682178505200000000000000000000000000000000000000000000000000000000000000000000000000000, 55704508454600000000000000000000000000000000000000000000000000000000000000000000000000000, 59867458509300000000000000000000000000000000000000000000000000000000000000000000000000000, 64170649566400000000000000000000000000000000000000000000000000000000000000000000000000000, 68613744560900000000000000000000000000000000000000000000000000000000000000000000000000000, 73196428830400000000000000000000000000000000000000000000000000000000000000000000000000000, 77918392313900000000000000000000000000000000000000000000000000000000000000000000000000000, 82779313630700000000000000000000000000000000000000000000000000000000000000000000000000000, 87778846034500000000000000000000000000000000000000000000000000000000000000000000000000000]),
  (982671743487000, [778161646075000000000000000000000000000000000000000000000000000000000000000000, 2331662494920000000000000000000000000000000000000000000000000000000000000000000000, 144726461399000000000000000000000000000000000000000000000000000000000000000000000000, 1845135597090000000000000000000000000000000000000000000000000000000000000000000000000, 10541968813600000000000000000000000000000000000000000000000000000000000000000000000000, 37810627178200000000000000000000000000000000000000000000000000000000000000000000000000, 100849336217000000000000000000000000000000000000000000000000000000000000000000000000000, 219978347057000000000000000000000000000000000000000000000000000000000000000000000000000, 415800036772000000000000000000000000000000000000000000000000000000000000000000000000000, 707087418277000000000000000000000000000000000000000000000000000000000000000000000000000, 1109653242200000000000000000000000000000000000000000000000000000000000000000000000000000, 1636007188340000000000000000000000000000000000000000000000000000000000000000000000000000, 2295504573320000000000000000000000000000000000000000000000000000000000000000000000000000, 3094741706100000000000000000000000000000000000000000000000000000000000000000000000000000, 4038037667410000000000000000000000000000000000000000000000000000000000000000000000000000, 5127912159290000000000000000000000000000000000000000000000000000000000000000000000000000, 6365515460040000000000000000000000000000000000000000000000000000000000000000000000000000, 7750993857260000000000000000000000000000000000000000000000000000000000000000000000000000, 9283788620830000000000000000000000000000000000000000000000000000000000000000000000000000, 10962873673700000000000000000000000000000000000000000000000000000000000000000000000000000, 12786939957600000000000000000000000000000000000000000000000000000000000000000000000000000, 14754535088000000000000000000000000000000000000000000000000000000000000000000000000000000, 16864166402100000000000000000000000000000000000000000000000000000000000000000000000000000, 19114374560900000000000000000000000000000000000000000000000000000000000000000000000000000, 21503783803300000000000000000000000000000000000000000000000000000000000000000000000000000, 24031133922500000000000000000000000000000000000000000000000000000000000000000000000000000, 26695298123000000000000000000000000000000000000000000000000000000000000000000000000000000, 29495290126900000000000000000000000000000000000000000000000000000000000000000000000000000, 32430263245500000000000000000000000000000000000000000000000000000000000000000000000000000, 35499503584500000000000000000000000000000000000000000000000000000000000000000000000000000, 38702419111000000000000000000000000000000000000000000000000000000000000000000000000000000, 42038525947700000000000000000000000000000000000000000000000000000000000000000000000000000, 45507432964800000000000000000000000000000000000000000000000000000000000000000000000000000, 49108825506900000000000000000000000000000000000000000000000000000000000000000000000000000, 52842448894600000000000000000000000000000000000000000000000000000000000000000000000000000, 56708092190500000000000000000000000000000000000000000000000000000000000000000000000000000, 60705572588900000000000000000000000000000000000000000000000000000000000000000000000000000, 64834720692700000000000000000000000000000000000000000000000000000000000000000000000000000, 69095366855200000000000000000000000000000000000000000000000000000000000000000000000000000, 73487328703400000000000000000000000000000000000000000000000000000000000000000000000000000]),
  (984775751503000, [56565508335600000000000000000000000000000000000000000000000000000000000000000, 392575688327000000000000000000000000000000000000000000000000000000000000000000000, 37264394094800000000000000000000000000000000000000000000000000000000000000000000000, 614375177710000000000000000000000000000000000000000000000000000000000000000000000000, 4172185048290000000000000000000000000000000000000000000000000000000000000000000000000, 16943793302800000000000000000000000000000000000000000000000000000000000000000000000000, 49628164600000000000000000000000000000000000000000000000000000000000000000000000000000, 116453444441000000000000000000000000000000000000000000000000000000000000000000000000000, 233384947161000000000000000000000000000000000000000000000000000000000000000000000000000, 416363585466000000000000000000000000000000000000000000000000000000000000000000000000000, 680039042991000000000000000000000000000000000000000000000000000000000000000000000000000, 1037070348250000000000000000000000000000000000000000000000000000000000000000000000000000, 1497877714600000000000000000000000000000000000000000000000000000000000000000000000000000, 2070689428880000000000000000000000000000000000000000000000000000000000000000000000000000, 2761752543440000000000000000000000000000000000000000000000000000000000000000000000000000, 3575616043530000000000000000000000000000000000000000000000000000000000000000000000000000, 4515429954510000000000000000000000000000000000000000000000000000000000000000000000000000, 5583228823340000000000000000000000000000000000000000000000000000000000000000000000000000, 6780184185920000000000000000000000000000000000000000000000000000000000000000000000000000, 8106820385290000000000000000000000000000000000000000000000000000000000000000000000000000, 9563193599570000000000000000000000000000000000000000000000000000000000000000000000000000, 11149036772700000000000000000000000000000000000000000000000000000000000000000000000000000, 12863874389500000000000000000000000000000000000000000000000000000000000000000000000000000, 14707111385400000000000000000000000000000000000000000000000000000000000000000000000000000, 16678100347100000000000000000000000000000000000000000000000000000000000000000000000000000, 18776190796200000000000000000000000000000000000000000000000000000000000000000000000000000, 21000763890900000000000000000000000000000000000000000000000000000000000000000000000000000, 23351255414500000000000000000000000000000000000000000000000000000000000000000000000000000, 25827169476500000000000000000000000000000000000000000000000000000000000000000000000000000, 28428084957100000000000000000000000000000000000000000000000000000000000000000000000000000, 31153656377900000000000000000000000000000000000000000000000000000000000000000000000000000, 34003610585000000000000000000000000000000000000000000000000000000000000000000000000000000, 36977740376900000000000000000000000000000000000000000000000000000000000000000000000000000, 40075895996200000000000000000000000000000000000000000000000000000000000000000000000000000, 43297975227200000000000000000000000000000000000000000000000000000000000000000000000000000, 46643912689100000000000000000000000000000000000000000000000000000000000000000000000000000, 50113668793700000000000000000000000000000000000000000000000000000000000000000000000000000, 53707218729600000000000000000000000000000000000000000000000000000000000000000000000000000, 57424541753300000000000000000000000000000000000000000000000000000000000000000000000000000, 61265610994700000000000000000000000000000000000000000000000000000000000000000000000000000]),
  (986879759519000, [3615329264420000000000000000000000000000000000000000000000000000000000000000, 60698730866000000000000000000000000000000000000000000000000000000000000000000000, 9005953877190000000000000000000000000000000000000000000000000000000000000000000000, 194556253425000000000000000000000000000000000000000000000000000000000000000000000000, 1584288562560000000000000000000000000000000000000000000000000000000000000000000000000, 7331102841320000000000000000000000000000000000000000000000000000000000000000000000000, 23691511154000000000000000000000000000000000000000000000000000000000000000000000000000, 60023743112400000000000000000000000000000000000000000000000000000000000000000000000000, 127916760710000000000000000000000000000000000000000000000000000000000000000000000000000, 239979202156000000000000000000000000000000000000000000000000000000000000000000000000000, 408735427736000000000000000000000000000000000000000000000000000000000000000000000000000, 645832706613000000000000000000000000000000000000000000000000000000000000000000000000000, 961580229338000000000000000000000000000000000000000000000000000000000000000000000000000, 1364756081410000000000000000000000000000000000000000000000000000000000000000000000000000, 1862599248320000000000000000000000000000000000000000000000000000000000000000000000000000, 2460914152140000000000000000000000000000000000000000000000000000000000000000000000000000, 3164233905060000000000000000000000000000000000000000000000000000000000000000000000000000, 3976006112370000000000000000000000000000000000000000000000000000000000000000000000000000, 4898778790550000000000000000000000000000000000000000000000000000000000000000000000000000, 5934373651970000000000000000000000000000000000000000000000000000000000000000000000000000, 7084040412780000000000000000000000000000000000000000000000000000000000000000000000000000, 8348589796550000000000000000000000000000000000000000000000000000000000000000000000000000, 9728505290030000000000000000000000000000000000000000000000000000000000000000000000000000, 11224035022100000000000000000000000000000000000000000000000000000000000000000000000000000, 12835265777300000000000000000000000000000000000000000000000000000000000000000000000000000, 14562181388400000000000000000000000000000000000000000000000000000000000000000000000000000, 16404707742900000000000000000000000000000000000000000000000000000000000000000000000000000, 18362746508000000000000000000000000000000000000000000000000000000000000000000000000000000, 20436199476800000000000000000000000000000000000000000000000000000000000000000000000000000, 22624985220500000000000000000000000000000000000000000000000000000000000000000000000000000, 24929049512900000000000000000000000000000000000000000000000000000000000000000000000000000, 27348370785600000000000000000000000000000000000000000000000000000000000000000000000000000, 29882961682100000000000000000000000000000000000000000000000000000000000000000000000000000, 32532867615500000000000000000000000000000000000000000000000000000000000000000000000000000, 35298163080600000000000000000000000000000000000000000000000000000000000000000000000000000, 38178946348500000000000000000000000000000000000000000000000000000000000000000000000000000, 41175333056800000000000000000000000000000000000000000000000000000000000000000000000000000, 44287449115800000000000000000000000000000000000000000000000000000000000000000000000000000, 47515423267900000000000000000000000000000000000000000000000000000000000000000000000000000, 50859379571500000000000000000000000000000000000000000000000000000000000000000000000000000]),
  (988983767535000, [203175752080000000000000000000000000000000000000000000000000000000000000000, 8618068746360000000000000000000000000000000000000000000000000000000000000000000, 2042761044020000000000000000000000000000000000000000000000000000000000000000000000, 58589453846200000000000000000000000000000000000000000000000000000000000000000000000, 577147911131000000000000000000000000000000000000000000000000000000000000000000000000, 3062252444970000000000000000000000000000000000000000000000000000000000000000000000000, 10970246186600000000000000000000000000000000000000000000000000000000000000000000000000, 30119025493700000000000000000000000000000000000000000000000000000000000000000000000000, 68453652556000000000000000000000000000000000000000000000000000000000000000000000000000, 135370419984000000000000000000000000000000000000000000000000000000000000000000000000000, 240913249676000000000000000000000000000000000000000000000000000000000000000000000000000, 395065343200000000000000000000000000000000000000000000000000000000000000000000000000000, 607231388494000000000000000000000000000000000000000000000000000000000000000000000000000, 885917994548000000000000000000000000000000000000000000000000000000000000000000000000000, 1238578791240000000000000000000000000000000000000000000000000000000000000000000000000000, 1671579547200000000000000000000000000000000000000000000000000000000000000000000000000000, 2190242194630000000000000000000000000000000000000000000000000000000000000000000000000000, 2798935270420000000000000000000000000000000000000000000000000000000000000000000000000000, 3501187324280000000000000000000000000000000000000000000000000000000000000000000000000000, 4299807488950000000000000000000000000000000000000000000000000000000000000000000000000000, 5197003233100000000000000000000000000000000000000000000000000000000000000000000000000000, 6194489479060000000000000000000000000000000000000000000000000000000000000000000000000000, 7293586102230000000000000000000000000000000000000000000000000000000000000000000000000000, 8495302678530000000000000000000000000000000000000000000000000000000000000000000000000000, 9800410499690000000000000000000000000000000000000000000000000000000000000000000000000000, 11209502553500000000000000000000000000000000000000000000000000000000000000000000000000000, 12723042528000000000000000000000000000000000000000000000000000000000000000000000000000000, 14341404059500000000000000000000000000000000000000000000000000000000000000000000000000000, 16064901473200000000000000000000000000000000000000000000000000000000000000000000000000000, 17893813229000000000000000000000000000000000000000000000000000000000000000000000000000000, 19828399194300000000000000000000000000000000000000000000000000000000000000000000000000000, 21868912767900000000000000000000000000000000000000000000000000000000000000000000000000000, 24015608761000000000000000000000000000000000000000000000000000000000000000000000000000000, 26268747836500000000000000000000000000000000000000000000000000000000000000000000000000000, 28628598199300000000000000000000000000000000000000000000000000000000000000000000000000000, 31095435133000000000000000000000000000000000000000000000000000000000000000000000000000000, 33669538893800000000000000000000000000000000000000000000000000000000000000000000000000000, 36351191388400000000000000000000000000000000000000000000000000000000000000000000000000000, 39140671997500000000000000000000000000000000000000000000000000000000000000000000000000000, 42038252842700000000000000000000000000000000000000000000000000000000000000000000000000000]),
  (991087775551000, [10040591327800000000000000000000000000000000000000000000000000000000000000, 1123585668500000000000000000000000000000000000000000000000000000000000000000000, 434844407518000000000000000000000000000000000000000000000000000000000000000000000, 16777415956000000000000000000000000000000000000000000000000000000000000000000000000, 201690866385000000000000000000000000000000000000000000000000000000000000000000000000, 1234771937040000000000000000000000000000000000000000000000000000000000000000000000000, 4926720202130000000000000000000000000000000000000000000000000000000000000000000000000, 14711709412300000000000000000000000000000000000000000000000000000000000000000000000000, 35763216054700000000000000000000000000000000000000000000000000000000000000000000000000, 74727211246300000000000000000000000000000000000000000000000000000000000000000000000000, 139233641096000000000000000000000000000000000000000000000000000000000000000000000000000, 237361260401000000000000000000000000000000000000000000000000000000000000000000000000000, 377170135321000000000000000000000000000000000000000000000000000000000000000000000000000, 566350576385000000000000000000000000000000000000000000000000000000000000000000000000000, 811993320063000000000000000000000000000000000000000000000000000000000000000000000000000, 1120463853070000000000000000000000000000000000000000000000000000000000000000000000000000, 1497356541860000000000000000000000000000000000000000000000000000000000000000000000000000, 1947504792760000000000000000000000000000000000000000000000000000000000000000000000000000, 2475027297160000000000000000000000000000000000000000000000000000000000000000000000000000, 3083395038270000000000000000000000000000000000000000000000000000000000000000000000000000, 3775508003740000000000000000000000000000000000000000000000000000000000000000000000000000, 4553774047710000000000000000000000000000000000000000000000000000000000000000000000000000, 5420185022800000000000000000000000000000000000000000000000000000000000000000000000000000, 6376387254630000000000000000000000000000000000000000000000000000000000000000000000000000, 7423744801460000000000000000000000000000000000000000000000000000000000000000000000000000, 8563394870240000000000000000000000000000000000000000000000000000000000000000000000000000, 9796295366100000000000000000000000000000000000000000000000000000000000000000000000000000, 11123264929100000000000000000000000000000000000000000000000000000000000000000000000000000, 12545016030300000000000000000000000000000000000000000000000000000000000000000000000000000, 14062181809100000000000000000000000000000000000000000000000000000000000000000000000000000, 15675337376100000000000000000000000000000000000000000000000000000000000000000000000000000, 17385016296200000000000000000000000000000000000000000000000000000000000000000000000000000, 19191722937200000000000000000000000000000000000000000000000000000000000000000000000000000, 21095941318000000000000000000000000000000000000000000000000000000000000000000000000000000, 23098141032200000000000000000000000000000000000000000000000000000000000000000000000000000, 25198780765900000000000000000000000000000000000000000000000000000000000000000000000000000, 27398309864900000000000000000000000000000000000000000000000000000000000000000000000000000, 29697168352800000000000000000000000000000000000000000000000000000000000000000000000000000, 32095785745100000000000000000000000000000000000000000000000000000000000000000000000000000, 34594578958600000000000000000000000000000000000000000000000000000000000000000000000000000]),
  (993191783567000, [436379620310000000000000000000000000000000000000000000000000000000000000, 134516024480000000000000000000000000000000000000000000000000000000000000000000, 86869390906800000000000000000000000000000000000000000000000000000000000000000000, 4568159371490000000000000000000000000000000000000000000000000000000000000000000000, 67609125329400000000000000000000000000000000000000000000000000000000000000000000000, 480591899177000000000000000000000000000000000000000000000000000000000000000000000000, 2145775627360000000000000000000000000000000000000000000000000000000000000000000000000, 6994466245910000000000000000000000000000000000000000000000000000000000000000000000000, 18239400855900000000000000000000000000000000000000000000000000000000000000000000000000, 40364614069900000000000000000000000000000000000000000000000000000000000000000000000000, 78895859963000000000000000000000000000000000000000000000000000000000000000000000000000, 140056636345000000000000000000000000000000000000000000000000000000000000000000000000000, 230406849936000000000000000000000000000000000000000000000000000000000000000000000000000, 356525758349000000000000000000000000000000000000000000000000000000000000000000000000000, 524766579783000000000000000000000000000000000000000000000000000000000000000000000000000, 741086877568000000000000000000000000000000000000000000000000000000000000000000000000000, 1010946324780000000000000000000000000000000000000000000000000000000000000000000000000000, 1339258501970000000000000000000000000000000000000000000000000000000000000000000000000000, 1730382805300000000000000000000000000000000000000000000000000000000000000000000000000000, 2188144091970000000000000000000000000000000000000000000000000000000000000000000000000000, 2715870007720000000000000000000000000000000000000000000000000000000000000000000000000000, 3316438307970000000000000000000000000000000000000000000000000000000000000000000000000000, 3992328573080000000000000000000000000000000000000000000000000000000000000000000000000000, 4745674421170000000000000000000000000000000000000000000000000000000000000000000000000000, 5578313641420000000000000000000000000000000000000000000000000000000000000000000000000000, 6491834654160000000000000000000000000000000000000000000000000000000000000000000000000000, 7487618415050000000000000000000000000000000000000000000000000000000000000000000000000000, 8566875379870000000000000000000000000000000000000000000000000000000000000000000000000000, 9730677485310000000000000000000000000000000000000000000000000000000000000000000000000000, 10979985323300000000000000000000000000000000000000000000000000000000000000000000000000000, 12315670823700000000000000000000000000000000000000000000000000000000000000000000000000000, 13738535837200000000000000000000000000000000000000000000000000000000000000000000000000000, 15249327047100000000000000000000000000000000000000000000000000000000000000000000000000000, 16848747645200000000000000000000000000000000000000000000000000000000000000000000000000000, 18537466197400000000000000000000000000000000000000000000000000000000000000000000000000000, 20316123101000000000000000000000000000000000000000000000000000000000000000000000000000000, 22185335007300000000000000000000000000000000000000000000000000000000000000000000000000000, 24145697549000000000000000000000000000000000000000000000000000000000000000000000000000000, 26197786677900000000000000000000000000000000000000000000000000000000000000000000000000000, 28342158884800000000000000000000000000000000000000000000000000000000000000000000000000000]),
  (995295791583000, [16682374493100000000000000000000000000000000000000000000000000000000000, 14788742654700000000000000000000000000000000000000000000000000000000000000000, 16286006469800000000000000000000000000000000000000000000000000000000000000000000, 1182650386060000000000000000000000000000000000000000000000000000000000000000000000, 21738347197200000000000000000000000000000000000000000000000000000000000000000000000, 180545921015000000000000000000000000000000000000000000000000000000000000000000000000, 906295390549000000000000000000000000000000000000000000000000000000000000000000000000, 3236583441370000000000000000000000000000000000000000000000000000000000000000000000000, 9080050452390000000000000000000000000000000000000000000000000000000000000000000000000, 21333300997900000000000000000000000000000000000000000000000000000000000000000000000000, 43828633340100000000000000000000000000000000000000000000000000000000000000000000000000, 81155294278100000000000000000000000000000000000000000000000000000000000000000000000000, 138418543659000000000000000000000000000000000000000000000000000000000000000000000000000, 220991514397000000000000000000000000000000000000000000000000000000000000000000000000000, 334294975959000000000000000000000000000000000000000000000000000000000000000000000000000, 483621635833000000000000000000000000000000000000000000000000000000000000000000000000000, 674008640667000000000000000000000000000000000000000000000000000000000000000000000000000, 910154436831000000000000000000000000000000000000000000000000000000000000000000000000000, 1196372698850000000000000000000000000000000000000000000000000000000000000000000000000000, 1536575127640000000000000000000000000000000000000000000000000000000000000000000000000000, 1934275402320000000000000000000000000000000000000000000000000000000000000000000000000000, 2392607678650000000000000000000000000000000000000000000000000000000000000000000000000000, 2914354315600000000000000000000000000000000000000000000000000000000000000000000000000000, 3501978743420000000000000000000000000000000000000000000000000000000000000000000000000000, 4157660456640000000000000000000000000000000000000000000000000000000000000000000000000000, 4883329991930000000000000000000000000000000000000000000000000000000000000000000000000000, 5680702440590000000000000000000000000000000000000000000000000000000000000000000000000000, 6551308571580000000000000000000000000000000000000000000000000000000000000000000000000000, 7496523031900000000000000000000000000000000000000000000000000000000000000000000000000000, 8517589374390000000000000000000000000000000000000000000000000000000000000000000000000000, 9615641862780000000000000000000000000000000000000000000000000000000000000000000000000000, 10791724140400000000000000000000000000000000000000000000000000000000000000000000000000000, 12046804937900000000000000000000000000000000000000000000000000000000000000000000000000000, 13381791049800000000000000000000000000000000000000000000000000000000000000000000000000000, 14797537839400000000000000000000000000000000000000000000000000000000000000000000000000000, 16294857541900000000000000000000000000000000000000000000000000000000000000000000000000000, 17874525635800000000000000000000000000000000000000000000000000000000000000000000000000000, 19537285541700000000000000000000000000000000000000000000000000000000000000000000000000000, 21283851894700000000000000000000000000000000000000000000000000000000000000000000000000000, 23114912615600000000000000000000000000000000000000000000000000000000000000000000000000000]),
  (997399799599000, [561078718979000000000000000000000000000000000000000000000000000000000, 1493159507220000000000000000000000000000000000000000000000000000000000000000, 2865396448250000000000000000000000000000000000000000000000000000000000000000000, 291116587047000000000000000000000000000000000000000000000000000000000000000000000, 6704083081160000000000000000000000000000000000000000000000000000000000000000000000, 65464358206600000000000000000000000000000000000000000000000000000000000000000000000, 371188784823000000000000000000000000000000000000000000000000000000000000000000000000, 1457596760670000000000000000000000000000000000000000000000000000000000000000000000000, 4412095900080000000000000000000000000000000000000000000000000000000000000000000000000, 11031234580700000000000000000000000000000000000000000000000000000000000000000000000000, 23868635480200000000000000000000000000000000000000000000000000000000000000000000000000, 46176456531800000000000000000000000000000000000000000000000000000000000000000000000000, 81771970510500000000000000000000000000000000000000000000000000000000000000000000000000, 134868119554000000000000000000000000000000000000000000000000000000000000000000000000000, 209900235898000000000000000000000000000000000000000000000000000000000000000000000000000, 311369953242000000000000000000000000000000000000000000000000000000000000000000000000000, 443717017704000000000000000000000000000000000000000000000000000000000000000000000000000, 611222174367000000000000000000000000000000000000000000000000000000000000000000000000000, 817939638388000000000000000000000000000000000000000000000000000000000000000000000000000, 1067655238590000000000000000000000000000000000000000000000000000000000000000000000000000, 1363865416160000000000000000000000000000000000000000000000000000000000000000000000000000, 1709772263850000000000000000000000000000000000000000000000000000000000000000000000000000, 2108290269800000000000000000000000000000000000000000000000000000000000000000000000000000, 2562061106620000000000000000000000000000000000000000000000000000000000000000000000000000, 3073473518540000000000000000000000000000000000000000000000000000000000000000000000000000, 3644686020830000000000000000000000000000000000000000000000000000000000000000000000000000, 4277650698460000000000000000000000000000000000000000000000000000000000000000000000000000, 4974136865260000000000000000000000000000000000000000000000000000000000000000000000000000, 5735753724060000000000000000000000000000000000000000000000000000000000000000000000000000, 6563971464260000000000000000000000000000000000000000000000000000000000000000000000000000, 7460140458610000000000000000000000000000000000000000000000000000000000000000000000000000, 8425508389360000000000000000000000000000000000000000000000000000000000000000000000000000, 9461235256000000000000000000000000000000000000000000000000000000000000000000000000000000, 10568406304000000000000000000000000000000000000000000000000000000000000000000000000000000, 11748042972700000000000000000000000000000000000000000000000000000000000000000000000000000, 13001112000200000000000000000000000000000000000000000000000000000000000000000000000000000, 14328532842600000000000000000000000000000000000000000000000000000000000000000000000000000, 15731183581700000000000000000000000000000000000000000000000000000000000000000000000000000, 17209905491600000000000000000000000000000000000000000000000000000000000000000000000000000, 18765506435800000000000000000000000000000000000000000000000000000000000000000000000000000])]
noncomputable def ttSpec19 : List (Nat × List Nat) := [
  (999503807615000, [16605744428600000000000000000000000000000000000000000000000000000000, 138463847540000000000000000000000000000000000000000000000000000000000000000, 473142904228000000000000000000000000000000000000000000000000000000000000000000, 68135988260100000000000000000000000000000000000000000000000000000000000000000000, 1983078949540000000000000000000000000000000000000000000000000000000000000000000000, 22909661720800000000000000000000000000000000000000000000000000000000000000000000000, 147416389181000000000000000000000000000000000000000000000000000000000000000000000000, 638835818054000000000000000000000000000000000000000000000000000000000000000000000000, 2092478396450000000000000000000000000000000000000000000000000000000000000000000000000, 5580554940750000000000000000000000000000000000000000000000000000000000000000000000000, 12742073072800000000000000000000000000000000000000000000000000000000000000000000000000, 25798272726900000000000000000000000000000000000000000000000000000000000000000000000000, 47500776351100000000000000000000000000000000000000000000000000000000000000000000000000, 81033767135500000000000000000000000000000000000000000000000000000000000000000000000000, 129893910630000000000000000000000000000000000000000000000000000000000000000000000000000, 197767513590000000000000000000000000000000000000000000000000000000000000000000000000000, 288418051119000000000000000000000000000000000000000000000000000000000000000000000000000, 405591250401000000000000000000000000000000000000000000000000000000000000000000000000000, 552940399780000000000000000000000000000000000000000000000000000000000000000000000000000, 733971572233000000000000000000000000000000000000000000000000000000000000000000000000000, 952006748692000000000000000000000000000000000000000000000000000000000000000000000000000, 1210162041240000000000000000000000000000000000000000000000000000000000000000000000000000, 1511338025470000000000000000000000000000000000000000000000000000000000000000000000000000, 1858219347500000000000000000000000000000000000000000000000000000000000000000000000000000, 2253281103340000000000000000000000000000000000000000000000000000000000000000000000000000, 2698799886370000000000000000000000000000000000000000000000000000000000000000000000000000, 3196867799090000000000000000000000000000000000000000000000000000000000000000000000000000, 3749408092620000000000000000000000000000000000000000000000000000000000000000000000000000, 4358191417010000000000000000000000000000000000000000000000000000000000000000000000000000, 5024851933290000000000000000000000000000000000000000000000000000000000000000000000000000, 5750902755800000000000000000000000000000000000000000000000000000000000000000000000000000, 6537750367330000000000000000000000000000000000000000000000000000000000000000000000000000, 7386707784280000000000000000000000000000000000000000000000000000000000000000000000000000, 8299006353110000000000000000000000000000000000000000000000000000000000000000000000000000, 9275806136330000000000000000000000000000000000000000000000000000000000000000000000000000, 10318204903200000000000000000000000000000000000000000000000000000000000000000000000000000, 11427245780400000000000000000000000000000000000000000000000000000000000000000000000000000, 12603923645000000000000000000000000000000000000000000000000000000000000000000000000000000, 13849190359700000000000000000000000000000000000000000000000000000000000000000000000000000, 15163958958900000000000000000000000000000000000000000000000000000000000000000000000000000]),
  (1001607815630000, [432581271483000000000000000000000000000000000000000000000000000000, 11794169774500000000000000000000000000000000000000000000000000000000000000, 73326263181800000000000000000000000000000000000000000000000000000000000000000, 15163346539700000000000000000000000000000000000000000000000000000000000000000000, 562639531792000000000000000000000000000000000000000000000000000000000000000000000, 7737931545850000000000000000000000000000000000000000000000000000000000000000000000, 56769338471700000000000000000000000000000000000000000000000000000000000000000000000, 272477155485000000000000000000000000000000000000000000000000000000000000000000000000, 968548321979000000000000000000000000000000000000000000000000000000000000000000000000, 2761853347350000000000000000000000000000000000000000000000000000000000000000000000000, 6667706545770000000000000000000000000000000000000000000000000000000000000000000000000, 14151635680200000000000000000000000000000000000000000000000000000000000000000000000000, 27130739280700000000000000000000000000000000000000000000000000000000000000000000000000, 47931775104200000000000000000000000000000000000000000000000000000000000000000000000000, 79219929041700000000000000000000000000000000000000000000000000000000000000000000000000, 123912999369000000000000000000000000000000000000000000000000000000000000000000000000000, 185093171448000000000000000000000000000000000000000000000000000000000000000000000000000, 265924869027000000000000000000000000000000000000000000000000000000000000000000000000000, 369583653315000000000000000000000000000000000000000000000000000000000000000000000000000, 499198358986000000000000000000000000000000000000000000000000000000000000000000000000000, 657806716863000000000000000000000000000000000000000000000000000000000000000000000000000, 848323511681000000000000000000000000000000000000000000000000000000000000000000000000000, 1073519684960000000000000000000000000000000000000000000000000000000000000000000000000000, 1336010544310000000000000000000000000000000000000000000000000000000000000000000000000000, 1638251239410000000000000000000000000000000000000000000000000000000000000000000000000000, 1982537805870000000000000000000000000000000000000000000000000000000000000000000000000000, 2371012289210000000000000000000000000000000000000000000000000000000000000000000000000000, 2805670695870000000000000000000000000000000000000000000000000000000000000000000000000000, 3288372748460000000000000000000000000000000000000000000000000000000000000000000000000000, 3820852633580000000000000000000000000000000000000000000000000000000000000000000000000000, 4404730115480000000000000000000000000000000000000000000000000000000000000000000000000000, 5041521546010000000000000000000000000000000000000000000000000000000000000000000000000000, 5732650430850000000000000000000000000000000000000000000000000000000000000000000000000000, 6479457317790000000000000000000000000000000000000000000000000000000000000000000000000000, 7283208856390000000000000000000000000000000000000000000000000000000000000000000000000000, 8145105944080000000000000000000000000000000000000000000000000000000000000000000000000000, 9066290924090000000000000000000000000000000000000000000000000000000000000000000000000000, 10047853838100000000000000000000000000000000000000000000000000000000000000000000000000000, 11090837764600000000000000000000000000000000000000000000000000000000000000000000000000000, 12196243292400000000000000000000000000000000000000000000000000000000000000000000000000000]),
  (1003711823650000, [9921256562420000000000000000000000000000000000000000000000000000, 922893805044000000000000000000000000000000000000000000000000000000000000, 10666319101500000000000000000000000000000000000000000000000000000000000000000, 3208764526560000000000000000000000000000000000000000000000000000000000000000000, 153114775687000000000000000000000000000000000000000000000000000000000000000000000, 2522459709510000000000000000000000000000000000000000000000000000000000000000000000, 21197997417300000000000000000000000000000000000000000000000000000000000000000000000, 113097207335000000000000000000000000000000000000000000000000000000000000000000000000, 437537079275000000000000000000000000000000000000000000000000000000000000000000000000, 1337150997560000000000000000000000000000000000000000000000000000000000000000000000000, 3419964188510000000000000000000000000000000000000000000000000000000000000000000000000, 7621701899200000000000000000000000000000000000000000000000000000000000000000000000000, 15235943158300000000000000000000000000000000000000000000000000000000000000000000000000, 27910195513000000000000000000000000000000000000000000000000000000000000000000000000000, 47613509126000000000000000000000000000000000000000000000000000000000000000000000000000, 76584703737100000000000000000000000000000000000000000000000000000000000000000000000000, 117270545638000000000000000000000000000000000000000000000000000000000000000000000000000, 172261685871000000000000000000000000000000000000000000000000000000000000000000000000000, 244231996989000000000000000000000000000000000000000000000000000000000000000000000000000, 335884821559000000000000000000000000000000000000000000000000000000000000000000000000000, 449907898125000000000000000000000000000000000000000000000000000000000000000000000000000, 588937449388000000000000000000000000000000000000000000000000000000000000000000000000000, 755531068586000000000000000000000000000000000000000000000000000000000000000000000000000, 952148539342000000000000000000000000000000000000000000000000000000000000000000000000000, 1181139479200000000000000000000000000000000000000000000000000000000000000000000000000000, 1444736625900000000000000000000000000000000000000000000000000000000000000000000000000000, 1745053623950000000000000000000000000000000000000000000000000000000000000000000000000000, 2084086270040000000000000000000000000000000000000000000000000000000000000000000000000000, 2463716306780000000000000000000000000000000000000000000000000000000000000000000000000000, 2885716994540000000000000000000000000000000000000000000000000000000000000000000000000000, 3351759827090000000000000000000000000000000000000000000000000000000000000000000000000000, 3863421882000000000000000000000000000000000000000000000000000000000000000000000000000000, 4422193407350000000000000000000000000000000000000000000000000000000000000000000000000000, 5029485341390000000000000000000000000000000000000000000000000000000000000000000000000000, 5686636541600000000000000000000000000000000000000000000000000000000000000000000000000000, 6394920565750000000000000000000000000000000000000000000000000000000000000000000000000000, 7155551900640000000000000000000000000000000000000000000000000000000000000000000000000000, 7969691577260000000000000000000000000000000000000000000000000000000000000000000000000000, 8838452143930000000000000000000000000000000000000000000000000000000000000000000000000000, 9762901995070000000000000000000000000000000000000000000000000000000000000000000000000000]),
  (1005815831660000, [200390612042000000000000000000000000000000000000000000000000000, 66351115199500000000000000000000000000000000000000000000000000000000000, 1456434443330000000000000000000000000000000000000000000000000000000000000000, 645691724874000000000000000000000000000000000000000000000000000000000000000000, 39967974179900000000000000000000000000000000000000000000000000000000000000000000, 793636630389000000000000000000000000000000000000000000000000000000000000000000000, 7675180380950000000000000000000000000000000000000000000000000000000000000000000000, 45682557047100000000000000000000000000000000000000000000000000000000000000000000000, 192900939223000000000000000000000000000000000000000000000000000000000000000000000000, 633296481782000000000000000000000000000000000000000000000000000000000000000000000000, 1719346986820000000000000000000000000000000000000000000000000000000000000000000000000, 4030075576090000000000000000000000000000000000000000000000000000000000000000000000000, 8412191510730000000000000000000000000000000000000000000000000000000000000000000000000, 15998097311100000000000000000000000000000000000000000000000000000000000000000000000000, 28200662104800000000000000000000000000000000000000000000000000000000000000000000000000, 46688826718000000000000000000000000000000000000000000000000000000000000000000000000000, 73349965312000000000000000000000000000000000000000000000000000000000000000000000000000, 110245033242000000000000000000000000000000000000000000000000000000000000000000000000000, 159561628734000000000000000000000000000000000000000000000000000000000000000000000000000, 223568797417000000000000000000000000000000000000000000000000000000000000000000000000000, 304576102736000000000000000000000000000000000000000000000000000000000000000000000000000, 404898370006000000000000000000000000000000000000000000000000000000000000000000000000000, 526826656101000000000000000000000000000000000000000000000000000000000000000000000000000, 672605396022000000000000000000000000000000000000000000000000000000000000000000000000000, 844415293294000000000000000000000000000000000000000000000000000000000000000000000000000, 1044361304460000000000000000000000000000000000000000000000000000000000000000000000000000, 1274464972350000000000000000000000000000000000000000000000000000000000000000000000000000, 1536660349230000000000000000000000000000000000000000000000000000000000000000000000000000, 1832792788720000000000000000000000000000000000000000000000000000000000000000000000000000, 2164619953080000000000000000000000000000000000000000000000000000000000000000000000000000, 2533814463620000000000000000000000000000000000000000000000000000000000000000000000000000, 2941967707280000000000000000000000000000000000000000000000000000000000000000000000000000, 3390594395140000000000000000000000000000000000000000000000000000000000000000000000000000, 3881137544550000000000000000000000000000000000000000000000000000000000000000000000000000, 4414973625010000000000000000000000000000000000000000000000000000000000000000000000000000, 4993417666850000000000000000000000000000000000000000000000000000000000000000000000000000, 5617728182420000000000000000000000000000000000000000000000000000000000000000000000000000, 6289111791780000000000000000000000000000000000000000000000000000000000000000000000000000, 7008727479530000000000000000000000000000000000000000000000000000000000000000000000000000, 7777690437930000000000000000000000000000000000000000000000000000000000000000000000000000]),
  (1007919839680000, [3565563069140000000000000000000000000000000000000000000000000, 4383500428010000000000000000000000000000000000000000000000000000000000, 186692537902000000000000000000000000000000000000000000000000000000000000000, 123561119198000000000000000000000000000000000000000000000000000000000000000000, 10007623307800000000000000000000000000000000000000000000000000000000000000000000, 241004995742000000000000000000000000000000000000000000000000000000000000000000000, 2694626098400000000000000000000000000000000000000000000000000000000000000000000000, 17956632294000000000000000000000000000000000000000000000000000000000000000000000000, 82999536258300000000000000000000000000000000000000000000000000000000000000000000000, 293409264560000000000000000000000000000000000000000000000000000000000000000000000000, 847215046611000000000000000000000000000000000000000000000000000000000000000000000000, 2092087808050000000000000000000000000000000000000000000000000000000000000000000000000, 4566350351920000000000000000000000000000000000000000000000000000000000000000000000000, 9026655977240000000000000000000000000000000000000000000000000000000000000000000000000, 16459165583100000000000000000000000000000000000000000000000000000000000000000000000000, 28074679701200000000000000000000000000000000000000000000000000000000000000000000000000, 45290563875800000000000000000000000000000000000000000000000000000000000000000000000000, 69703366506100000000000000000000000000000000000000000000000000000000000000000000000000, 103056090382000000000000000000000000000000000000000000000000000000000000000000000000000, 147203549766000000000000000000000000000000000000000000000000000000000000000000000000000, 204078461100000000000000000000000000000000000000000000000000000000000000000000000000000, 275660101511000000000000000000000000000000000000000000000000000000000000000000000000000, 363946648503000000000000000000000000000000000000000000000000000000000000000000000000000, 470931737408000000000000000000000000000000000000000000000000000000000000000000000000000, 598585347358000000000000000000000000000000000000000000000000000000000000000000000000000, 748838835631000000000000000000000000000000000000000000000000000000000000000000000000000, 923573759214000000000000000000000000000000000000000000000000000000000000000000000000000, 1124614025030000000000000000000000000000000000000000000000000000000000000000000000000000, 1353720872920000000000000000000000000000000000000000000000000000000000000000000000000000, 1612590198940000000000000000000000000000000000000000000000000000000000000000000000000000, 1902851755570000000000000000000000000000000000000000000000000000000000000000000000000000, 2226069809690000000000000000000000000000000000000000000000000000000000000000000000000000, 2583744890150000000000000000000000000000000000000000000000000000000000000000000000000000, 2977316309490000000000000000000000000000000000000000000000000000000000000000000000000000, 3408165195930000000000000000000000000000000000000000000000000000000000000000000000000000, 3877617819080000000000000000000000000000000000000000000000000000000000000000000000000000, 4386949035990000000000000000000000000000000000000000000000000000000000000000000000000000, 4937385721890000000000000000000000000000000000000000000000000000000000000000000000000000, 5530110082510000000000000000000000000000000000000000000000000000000000000000000000000000, 6166262772580000000000000000000000000000000000000000000000000000000000000000000000000000]),
  (1010023847700000, [55905242038300000000000000000000000000000000000000000000000, 266157784318000000000000000000000000000000000000000000000000000000000, 22468037360600000000000000000000000000000000000000000000000000000000000000, 22487243288900000000000000000000000000000000000000000000000000000000000000000, 2403769182310000000000000000000000000000000000000000000000000000000000000000000, 70639792338800000000000000000000000000000000000000000000000000000000000000000000, 917341881567000000000000000000000000000000000000000000000000000000000000000000000, 6868748711410000000000000000000000000000000000000000000000000000000000000000000000, 34852804373500000000000000000000000000000000000000000000000000000000000000000000000, 132977111240000000000000000000000000000000000000000000000000000000000000000000000000, 409172065683000000000000000000000000000000000000000000000000000000000000000000000000, 1066213991130000000000000000000000000000000000000000000000000000000000000000000000000, 2436914976560000000000000000000000000000000000000000000000000000000000000000000000000, 5013351023000000000000000000000000000000000000000000000000000000000000000000000000000, 9465950541340000000000000000000000000000000000000000000000000000000000000000000000000, 16650803305100000000000000000000000000000000000000000000000000000000000000000000000000, 27605727871400000000000000000000000000000000000000000000000000000000000000000000000000, 43537047180900000000000000000000000000000000000000000000000000000000000000000000000000, 65799661563200000000000000000000000000000000000000000000000000000000000000000000000000, 95873061254000000000000000000000000000000000000000000000000000000000000000000000000000, 135335613167000000000000000000000000000000000000000000000000000000000000000000000000000, 185838980355000000000000000000000000000000000000000000000000000000000000000000000000000, 249084020167000000000000000000000000000000000000000000000000000000000000000000000000000, 326799036719000000000000000000000000000000000000000000000000000000000000000000000000000, 420720871871000000000000000000000000000000000000000000000000000000000000000000000000000, 532579016683000000000000000000000000000000000000000000000000000000000000000000000000000, 664082707256000000000000000000000000000000000000000000000000000000000000000000000000000, 816910822666000000000000000000000000000000000000000000000000000000000000000000000000000, 992704313843000000000000000000000000000000000000000000000000000000000000000000000000000, 1193060846800000000000000000000000000000000000000000000000000000000000000000000000000000, 1419531329410000000000000000000000000000000000000000000000000000000000000000000000000000, 1673617997890000000000000000000000000000000000000000000000000000000000000000000000000000, 1956773760070000000000000000000000000000000000000000000000000000000000000000000000000000, 2270402520960000000000000000000000000000000000000000000000000000000000000000000000000000, 2615860248820000000000000000000000000000000000000000000000000000000000000000000000000000, 2994456573130000000000000000000000000000000000000000000000000000000000000000000000000000, 3407456738670000000000000000000000000000000000000000000000000000000000000000000000000000, 3856083770040000000000000000000000000000000000000000000000000000000000000000000000000000, 4341520728910000000000000000000000000000000000000000000000000000000000000000000000000000, 4864912970680000000000000000000000000000000000000000000000000000000000000000000000000000]),
  (1012127855710000, [772660361606000000000000000000000000000000000000000000000, 14855105621200000000000000000000000000000000000000000000000000000000, 2538935835170000000000000000000000000000000000000000000000000000000000000, 3892426020850000000000000000000000000000000000000000000000000000000000000000, 553885532856000000000000000000000000000000000000000000000000000000000000000000, 19985130920300000000000000000000000000000000000000000000000000000000000000000000, 302828137451000000000000000000000000000000000000000000000000000000000000000000000, 2556899605830000000000000000000000000000000000000000000000000000000000000000000000, 14283087218600000000000000000000000000000000000000000000000000000000000000000000000, 58954243310300000000000000000000000000000000000000000000000000000000000000000000000, 193685460904000000000000000000000000000000000000000000000000000000000000000000000000, 533459314019000000000000000000000000000000000000000000000000000000000000000000000000, 1278544276950000000000000000000000000000000000000000000000000000000000000000000000000, 2740715099380000000000000000000000000000000000000000000000000000000000000000000000000, 5364377602930000000000000000000000000000000000000000000000000000000000000000000000000, 9740111557750000000000000000000000000000000000000000000000000000000000000000000000000, 16609758940300000000000000000000000000000000000000000000000000000000000000000000000000, 26863520975700000000000000000000000000000000000000000000000000000000000000000000000000, 41530393405900000000000000000000000000000000000000000000000000000000000000000000000000, 61763674721200000000000000000000000000000000000000000000000000000000000000000000000000, 88823332948000000000000000000000000000000000000000000000000000000000000000000000000000, 124056841298000000000000000000000000000000000000000000000000000000000000000000000000000, 168879802659000000000000000000000000000000000000000000000000000000000000000000000000000, 224757357999000000000000000000000000000000000000000000000000000000000000000000000000000, 293187064529000000000000000000000000000000000000000000000000000000000000000000000000000, 375683662530000000000000000000000000000000000000000000000000000000000000000000000000000, 473765935094000000000000000000000000000000000000000000000000000000000000000000000000000, 588945702681000000000000000000000000000000000000000000000000000000000000000000000000000, 722718878895000000000000000000000000000000000000000000000000000000000000000000000000000, 876558437529000000000000000000000000000000000000000000000000000000000000000000000000000, 1051909095460000000000000000000000000000000000000000000000000000000000000000000000000000, 1250183494020000000000000000000000000000000000000000000000000000000000000000000000000000, 1472759656440000000000000000000000000000000000000000000000000000000000000000000000000000, 1720979505500000000000000000000000000000000000000000000000000000000000000000000000000000, 1996148240030000000000000000000000000000000000000000000000000000000000000000000000000000, 2299534387370000000000000000000000000000000000000000000000000000000000000000000000000000, 2632370369950000000000000000000000000000000000000000000000000000000000000000000000000000, 2995853445800000000000000000000000000000000000000000000000000000000000000000000000000000, 3391146903550000000000000000000000000000000000000000000000000000000000000000000000000000, 3819381412650000000000000000000000000000000000000000000000000000000000000000000000000000]),
  (1014231863730000, [9416254348110000000000000000000000000000000000000000000, 762267882566000000000000000000000000000000000000000000000000000000, 269424016289000000000000000000000000000000000000000000000000000000000000, 640869145415000000000000000000000000000000000000000000000000000000000000000, 122444155568000000000000000000000000000000000000000000000000000000000000000000, 5457788451990000000000000000000000000000000000000000000000000000000000000000000, 96940578972900000000000000000000000000000000000000000000000000000000000000000000, 926276336315000000000000000000000000000000000000000000000000000000000000000000000, 5712585362920000000000000000000000000000000000000000000000000000000000000000000000, 25567570407000000000000000000000000000000000000000000000000000000000000000000000000, 89859832878600000000000000000000000000000000000000000000000000000000000000000000000, 262027941976000000000000000000000000000000000000000000000000000000000000000000000000, 659463496536000000000000000000000000000000000000000000000000000000000000000000000000, 1474783380540000000000000000000000000000000000000000000000000000000000000000000000000, 2995477103920000000000000000000000000000000000000000000000000000000000000000000000000, 5619438161450000000000000000000000000000000000000000000000000000000000000000000000000, 9864863914270000000000000000000000000000000000000000000000000000000000000000000000000, 16374040523300000000000000000000000000000000000000000000000000000000000000000000000000, 25911367869600000000000000000000000000000000000000000000000000000000000000000000000000, 39356528017500000000000000000000000000000000000000000000000000000000000000000000000000, 57693968936500000000000000000000000000000000000000000000000000000000000000000000000000, 81999923857100000000000000000000000000000000000000000000000000000000000000000000000000, 113428089714000000000000000000000000000000000000000000000000000000000000000000000000000, 153194911436000000000000000000000000000000000000000000000000000000000000000000000000000, 202565211968000000000000000000000000000000000000000000000000000000000000000000000000000, 262838703675000000000000000000000000000000000000000000000000000000000000000000000000000, 335337734071000000000000000000000000000000000000000000000000000000000000000000000000000, 421396466318000000000000000000000000000000000000000000000000000000000000000000000000000, 522351574770000000000000000000000000000000000000000000000000000000000000000000000000000, 639534445973000000000000000000000000000000000000000000000000000000000000000000000000000, 774264812236000000000000000000000000000000000000000000000000000000000000000000000000000, 927845703408000000000000000000000000000000000000000000000000000000000000000000000000000, 1101559578330000000000000000000000000000000000000000000000000000000000000000000000000000, 1296665486430000000000000000000000000000000000000000000000000000000000000000000000000000, 1514397108450000000000000000000000000000000000000000000000000000000000000000000000000000, 1755961530640000000000000000000000000000000000000000000000000000000000000000000000000000, 2022538616390000000000000000000000000000000000000000000000000000000000000000000000000000, 2315280851640000000000000000000000000000000000000000000000000000000000000000000000000000, 2635313554140000000000000000000000000000000000000000000000000000000000000000000000000000, 2983735350590000000000000000000000000000000000000000000000000000000000000000000000000000]),
  (1016335871740000, [101219930968000000000000000000000000000000000000000000, 35967885685800000000000000000000000000000000000000000000000000000, 26851678140200000000000000000000000000000000000000000000000000000000000, 100373960438000000000000000000000000000000000000000000000000000000000000000, 25970170490900000000000000000000000000000000000000000000000000000000000000000, 1438794770640000000000000000000000000000000000000000000000000000000000000000000, 30093574634900000000000000000000000000000000000000000000000000000000000000000000, 326563826366000000000000000000000000000000000000000000000000000000000000000000000, 2229850240630000000000000000000000000000000000000000000000000000000000000000000000, 10846841365700000000000000000000000000000000000000000000000000000000000000000000000, 40861339858200000000000000000000000000000000000000000000000000000000000000000000000, 126352030054000000000000000000000000000000000000000000000000000000000000000000000000, 334397220039000000000000000000000000000000000000000000000000000000000000000000000000, 781118784585000000000000000000000000000000000000000000000000000000000000000000000000, 1648158519090000000000000000000000000000000000000000000000000000000000000000000000000, 3197538729010000000000000000000000000000000000000000000000000000000000000000000000000, 5783294787220000000000000000000000000000000000000000000000000000000000000000000000000, 9858929577390000000000000000000000000000000000000000000000000000000000000000000000000, 15980407130300000000000000000000000000000000000000000000000000000000000000000000000000, 24804940745600000000000000000000000000000000000000000000000000000000000000000000000000, 37086188692200000000000000000000000000000000000000000000000000000000000000000000000000, 53666654469700000000000000000000000000000000000000000000000000000000000000000000000000, 75468133605800000000000000000000000000000000000000000000000000000000000000000000000000, 103480998264000000000000000000000000000000000000000000000000000000000000000000000000000, 138753004145000000000000000000000000000000000000000000000000000000000000000000000000000, 182378172347000000000000000000000000000000000000000000000000000000000000000000000000000, 235486163576000000000000000000000000000000000000000000000000000000000000000000000000000, 299232436828000000000000000000000000000000000000000000000000000000000000000000000000000, 374789376381000000000000000000000000000000000000000000000000000000000000000000000000000, 463338482333000000000000000000000000000000000000000000000000000000000000000000000000000, 566063650900000000000000000000000000000000000000000000000000000000000000000000000000000, 684145519407000000000000000000000000000000000000000000000000000000000000000000000000000, 818756815007000000000000000000000000000000000000000000000000000000000000000000000000000, 971058622784000000000000000000000000000000000000000000000000000000000000000000000000000, 1142197475570000000000000000000000000000000000000000000000000000000000000000000000000000, 1333303162060000000000000000000000000000000000000000000000000000000000000000000000000000, 1545487149740000000000000000000000000000000000000000000000000000000000000000000000000000, 1779841523050000000000000000000000000000000000000000000000000000000000000000000000000000, 2037438343780000000000000000000000000000000000000000000000000000000000000000000000000000, 2319329348800000000000000000000000000000000000000000000000000000000000000000000000000000]),
  (1018439879760000, [960062782359000000000000000000000000000000000000000, 1560919730170000000000000000000000000000000000000000000000000000, 2513693464480000000000000000000000000000000000000000000000000000000000, 14956011838200000000000000000000000000000000000000000000000000000000000000, 5285188563720000000000000000000000000000000000000000000000000000000000000000, 366164279065000000000000000000000000000000000000000000000000000000000000000000, 9059770989750000000000000000000000000000000000000000000000000000000000000000000, 112048997754000000000000000000000000000000000000000000000000000000000000000000000, 849491716129000000000000000000000000000000000000000000000000000000000000000000000, 4501545916220000000000000000000000000000000000000000000000000000000000000000000000, 18211291707800000000000000000000000000000000000000000000000000000000000000000000000, 59814423797000000000000000000000000000000000000000000000000000000000000000000000000, 166698072133000000000000000000000000000000000000000000000000000000000000000000000000, 407219098630000000000000000000000000000000000000000000000000000000000000000000000000, 893541559495000000000000000000000000000000000000000000000000000000000000000000000000, 1794436579340000000000000000000000000000000000000000000000000000000000000000000000000, 3346651746080000000000000000000000000000000000000000000000000000000000000000000000000, 5863788723360000000000000000000000000000000000000000000000000000000000000000000000000, 9742074981820000000000000000000000000000000000000000000000000000000000000000000000000, 15462852950300000000000000000000000000000000000000000000000000000000000000000000000000, 23591962506000000000000000000000000000000000000000000000000000000000000000000000000000, 34776432184500000000000000000000000000000000000000000000000000000000000000000000000000, 49739024279200000000000000000000000000000000000000000000000000000000000000000000000000, 69271219244600000000000000000000000000000000000000000000000000000000000000000000000000, 94225201059700000000000000000000000000000000000000000000000000000000000000000000000000, 125505341596000000000000000000000000000000000000000000000000000000000000000000000000000, 164059598267000000000000000000000000000000000000000000000000000000000000000000000000000, 210871149626000000000000000000000000000000000000000000000000000000000000000000000000000, 266950507656000000000000000000000000000000000000000000000000000000000000000000000000000, 333328268664000000000000000000000000000000000000000000000000000000000000000000000000000, 411048599709000000000000000000000000000000000000000000000000000000000000000000000000000, 501163504867000000000000000000000000000000000000000000000000000000000000000000000000000, 604727874925000000000000000000000000000000000000000000000000000000000000000000000000000, 722795293949000000000000000000000000000000000000000000000000000000000000000000000000000, 856414555115000000000000000000000000000000000000000000000000000000000000000000000000000, 1006626824600000000000000000000000000000000000000000000000000000000000000000000000000000, 1174463384650000000000000000000000000000000000000000000000000000000000000000000000000000, 1360943883890000000000000000000000000000000000000000000000000000000000000000000000000000, 1567075023230000000000000000000000000000000000000000000000000000000000000000000000000000, 1793849608660000000000000000000000000000000000000000000000000000000000000000000000000000]),
  (1020543887780000, [8037639446840000000000000000000000000000000000000, 62314638525100000000000000000000000000000000000000000000000000, 221063245560000000000000000000000000000000000000000000000000000000000, 2120294369370000000000000000000000000000000000000000000000000000000000000, 1032113476790000000000000000000000000000000000000000000000000000000000000000, 89964785897800000000000000000000000000000000000000000000000000000000000000000, 2645174307000000000000000000000000000000000000000000000000000000000000000000000, 37417421979800000000000000000000000000000000000000000000000000000000000000000000, 315858744644000000000000000000000000000000000000000000000000000000000000000000000, 1827559427400000000000000000000000000000000000000000000000000000000000000000000000, 7955261976320000000000000000000000000000000000000000000000000000000000000000000000, 27798485608500000000000000000000000000000000000000000000000000000000000000000000000, 81694960592900000000000000000000000000000000000000000000000000000000000000000000000, 208958825697000000000000000000000000000000000000000000000000000000000000000000000000, 477321956333000000000000000000000000000000000000000000000000000000000000000000000000, 993177313729000000000000000000000000000000000000000000000000000000000000000000000000, 1911581033500000000000000000000000000000000000000000000000000000000000000000000000000, 3445059260560000000000000000000000000000000000000000000000000000000000000000000000000, 5870507521830000000000000000000000000000000000000000000000000000000000000000000000000, 9533773010750000000000000000000000000000000000000000000000000000000000000000000000000, 14851800908800000000000000000000000000000000000000000000000000000000000000000000000000, 22312461579000000000000000000000000000000000000000000000000000000000000000000000000000, 32472339393500000000000000000000000000000000000000000000000000000000000000000000000000, 45952857667400000000000000000000000000000000000000000000000000000000000000000000000000, 63435149232100000000000000000000000000000000000000000000000000000000000000000000000000, 85654073793600000000000000000000000000000000000000000000000000000000000000000000000000, 113391746309000000000000000000000000000000000000000000000000000000000000000000000000000, 147470887754000000000000000000000000000000000000000000000000000000000000000000000000000, 188748250433000000000000000000000000000000000000000000000000000000000000000000000000000, 238108311122000000000000000000000000000000000000000000000000000000000000000000000000000, 296457370937000000000000000000000000000000000000000000000000000000000000000000000000000, 364718153334000000000000000000000000000000000000000000000000000000000000000000000000000, 443824951873000000000000000000000000000000000000000000000000000000000000000000000000000, 534719347431000000000000000000000000000000000000000000000000000000000000000000000000000, 638346489896000000000000000000000000000000000000000000000000000000000000000000000000000, 755651921115000000000000000000000000000000000000000000000000000000000000000000000000000, 887578903183000000000000000000000000000000000000000000000000000000000000000000000000000, 1035066207950000000000000000000000000000000000000000000000000000000000000000000000000000, 1199046319070000000000000000000000000000000000000000000000000000000000000000000000000000, 1380443996260000000000000000000000000000000000000000000000000000000000000000000000000000]),
  (1022647895790000, [59416075170300000000000000000000000000000000000, 2288922672930000000000000000000000000000000000000000000000000, 18266015749300000000000000000000000000000000000000000000000000000000, 286026802986000000000000000000000000000000000000000000000000000000000000, 193423793223000000000000000000000000000000000000000000000000000000000000000, 21341002783100000000000000000000000000000000000000000000000000000000000000000, 749040072093000000000000000000000000000000000000000000000000000000000000000000, 12161326808600000000000000000000000000000000000000000000000000000000000000000000, 114627391989000000000000000000000000000000000000000000000000000000000000000000000, 725840485448000000000000000000000000000000000000000000000000000000000000000000000, 3406118764210000000000000000000000000000000000000000000000000000000000000000000000, 12683286883400000000000000000000000000000000000000000000000000000000000000000000000, 39360351999500000000000000000000000000000000000000000000000000000000000000000000000, 105539640713000000000000000000000000000000000000000000000000000000000000000000000000, 251239819353000000000000000000000000000000000000000000000000000000000000000000000000, 542138525102000000000000000000000000000000000000000000000000000000000000000000000000, 1077753282560000000000000000000000000000000000000000000000000000000000000000000000000, 1999316253500000000000000000000000000000000000000000000000000000000000000000000000000, 3496682386800000000000000000000000000000000000000000000000000000000000000000000000000, 5813783259120000000000000000000000000000000000000000000000000000000000000000000000000, 9252344761970000000000000000000000000000000000000000000000000000000000000000000000000, 14173782792700000000000000000000000000000000000000000000000000000000000000000000000000, 20999351513900000000000000000000000000000000000000000000000000000000000000000000000000, 30208733174400000000000000000000000000000000000000000000000000000000000000000000000000, 42337327364400000000000000000000000000000000000000000000000000000000000000000000000000, 57972527500500000000000000000000000000000000000000000000000000000000000000000000000000, 77749272421700000000000000000000000000000000000000000000000000000000000000000000000000, 102345140500000000000000000000000000000000000000000000000000000000000000000000000000000, 132475220746000000000000000000000000000000000000000000000000000000000000000000000000000, 168886956471000000000000000000000000000000000000000000000000000000000000000000000000000, 212355116838000000000000000000000000000000000000000000000000000000000000000000000000000, 263677013286000000000000000000000000000000000000000000000000000000000000000000000000000, 323668043211000000000000000000000000000000000000000000000000000000000000000000000000000, 393157613463000000000000000000000000000000000000000000000000000000000000000000000000000, 472985471430000000000000000000000000000000000000000000000000000000000000000000000000000, 563998451629000000000000000000000000000000000000000000000000000000000000000000000000000, 667047630394000000000000000000000000000000000000000000000000000000000000000000000000000, 782985869951000000000000000000000000000000000000000000000000000000000000000000000000000, 912665725252000000000000000000000000000000000000000000000000000000000000000000000000000, 1056937681860000000000000000000000000000000000000000000000000000000000000000000000000000]),
  (1024751903810000, [387952533351000000000000000000000000000000000, 77373690040400000000000000000000000000000000000000000000000, 1418259835070000000000000000000000000000000000000000000000000000000, 36719260473400000000000000000000000000000000000000000000000000000000000, 34789142726200000000000000000000000000000000000000000000000000000000000000, 4887993492310000000000000000000000000000000000000000000000000000000000000000, 205726886563000000000000000000000000000000000000000000000000000000000000000000, 3847210692160000000000000000000000000000000000000000000000000000000000000000000, 40603040717700000000000000000000000000000000000000000000000000000000000000000000, 282020434511000000000000000000000000000000000000000000000000000000000000000000000, 1429433756670000000000000000000000000000000000000000000000000000000000000000000000, 5681242045690000000000000000000000000000000000000000000000000000000000000000000000, 18643407993300000000000000000000000000000000000000000000000000000000000000000000000, 52468053085400000000000000000000000000000000000000000000000000000000000000000000000, 130300713885000000000000000000000000000000000000000000000000000000000000000000000000, 291862494264000000000000000000000000000000000000000000000000000000000000000000000000, 599776154941000000000000000000000000000000000000000000000000000000000000000000000000, 1146121291260000000000000000000000000000000000000000000000000000000000000000000000000, 2058686198450000000000000000000000000000000000000000000000000000000000000000000000000, 3506453382040000000000000000000000000000000000000000000000000000000000000000000000000, 5703977911770000000000000000000000000000000000000000000000000000000000000000000000000, 8914458916730000000000000000000000000000000000000000000000000000000000000000000000000, 13451438434400000000000000000000000000000000000000000000000000000000000000000000000000, 19679172755700000000000000000000000000000000000000000000000000000000000000000000000000, 28011802630600000000000000000000000000000000000000000000000000000000000000000000000000, 38911500033500000000000000000000000000000000000000000000000000000000000000000000000000, 52885794337500000000000000000000000000000000000000000000000000000000000000000000000000, 70484285204100000000000000000000000000000000000000000000000000000000000000000000000000, 92294939053100000000000000000000000000000000000000000000000000000000000000000000000000, 118940145907000000000000000000000000000000000000000000000000000000000000000000000000000, 151072688054000000000000000000000000000000000000000000000000000000000000000000000000000, 189371744645000000000000000000000000000000000000000000000000000000000000000000000000000, 234539029382000000000000000000000000000000000000000000000000000000000000000000000000000, 287295133426000000000000000000000000000000000000000000000000000000000000000000000000000, 348376123361000000000000000000000000000000000000000000000000000000000000000000000000000, 418530425064000000000000000000000000000000000000000000000000000000000000000000000000000, 498516008520000000000000000000000000000000000000000000000000000000000000000000000000000, 589097876056000000000000000000000000000000000000000000000000000000000000000000000000000, 691045846702000000000000000000000000000000000000000000000000000000000000000000000000000, 805132622203000000000000000000000000000000000000000000000000000000000000000000000000000]),
  (1026855911820000, [2238237328950000000000000000000000000000000, 2407509192740000000000000000000000000000000000000000000000, 103494154366000000000000000000000000000000000000000000000000000000, 4486480613350000000000000000000000000000000000000000000000000000000000, 6005737763270000000000000000000000000000000000000000000000000000000000000, 1081058501370000000000000000000000000000000000000000000000000000000000000000, 54806899121500000000000000000000000000000000000000000000000000000000000000000, 1184641469300000000000000000000000000000000000000000000000000000000000000000000, 14038397892200000000000000000000000000000000000000000000000000000000000000000000, 107201489398000000000000000000000000000000000000000000000000000000000000000000000, 587998048136000000000000000000000000000000000000000000000000000000000000000000000, 2498401096060000000000000000000000000000000000000000000000000000000000000000000000, 8681586823950000000000000000000000000000000000000000000000000000000000000000000000, 25674506146900000000000000000000000000000000000000000000000000000000000000000000000, 66586847663400000000000000000000000000000000000000000000000000000000000000000000000, 154964348167000000000000000000000000000000000000000000000000000000000000000000000000, 329459609720000000000000000000000000000000000000000000000000000000000000000000000000, 648997459431000000000000000000000000000000000000000000000000000000000000000000000000, 1198052346260000000000000000000000000000000000000000000000000000000000000000000000000, 2091654840060000000000000000000000000000000000000000000000000000000000000000000000000, 3479798153490000000000000000000000000000000000000000000000000000000000000000000000000, 5551001841790000000000000000000000000000000000000000000000000000000000000000000000000, 8534887337620000000000000000000000000000000000000000000000000000000000000000000000000, 12703712626900000000000000000000000000000000000000000000000000000000000000000000000000, 18372891188600000000000000000000000000000000000000000000000000000000000000000000000000, 25900578800800000000000000000000000000000000000000000000000000000000000000000000000000, 35686450485700000000000000000000000000000000000000000000000000000000000000000000000000, 48169810768800000000000000000000000000000000000000000000000000000000000000000000000000, 63827186849800000000000000000000000000000000000000000000000000000000000000000000000000, 83169549874600000000000000000000000000000000000000000000000000000000000000000000000000, 106739297684000000000000000000000000000000000000000000000000000000000000000000000000000, 135107116135000000000000000000000000000000000000000000000000000000000000000000000000000, 168868817675000000000000000000000000000000000000000000000000000000000000000000000000000, 208642237016000000000000000000000000000000000000000000000000000000000000000000000000000, 255064245722000000000000000000000000000000000000000000000000000000000000000000000000000, 308787931032000000000000000000000000000000000000000000000000000000000000000000000000000, 370479969737000000000000000000000000000000000000000000000000000000000000000000000000000, 440818215566000000000000000000000000000000000000000000000000000000000000000000000000000, 520489508332000000000000000000000000000000000000000000000000000000000000000000000000000, 610187704921000000000000000000000000000000000000000000000000000000000000000000000000000]),
  (1028959919840000, [11414085750600000000000000000000000000000, 68968033461900000000000000000000000000000000000000000000, 7098862685460000000000000000000000000000000000000000000000000000, 521785349568000000000000000000000000000000000000000000000000000000000, 995214300053000000000000000000000000000000000000000000000000000000000000, 230887857785000000000000000000000000000000000000000000000000000000000000000, 14163211729000000000000000000000000000000000000000000000000000000000000000000, 355077438549000000000000000000000000000000000000000000000000000000000000000000, 4737844096350000000000000000000000000000000000000000000000000000000000000000000, 39867062052500000000000000000000000000000000000000000000000000000000000000000000, 237085589673000000000000000000000000000000000000000000000000000000000000000000000, 1078688799410000000000000000000000000000000000000000000000000000000000000000000000, 3974535641280000000000000000000000000000000000000000000000000000000000000000000000, 12366350568200000000000000000000000000000000000000000000000000000000000000000000000, 33528694627600000000000000000000000000000000000000000000000000000000000000000000000, 81147068162400000000000000000000000000000000000000000000000000000000000000000000000, 178632034924000000000000000000000000000000000000000000000000000000000000000000000000, 363010244586000000000000000000000000000000000000000000000000000000000000000000000000, 689147891252000000000000000000000000000000000000000000000000000000000000000000000000, 1234023055490000000000000000000000000000000000000000000000000000000000000000000000000, 2100769361050000000000000000000000000000000000000000000000000000000000000000000000000, 3422253845300000000000000000000000000000000000000000000000000000000000000000000000000, 5364012790070000000000000000000000000000000000000000000000000000000000000000000000000, 8126437197900000000000000000000000000000000000000000000000000000000000000000000000000, 11946164438600000000000000000000000000000000000000000000000000000000000000000000000000, 17096687872800000000000000000000000000000000000000000000000000000000000000000000000000, 23888238873200000000000000000000000000000000000000000000000000000000000000000000000000, 32667025045400000000000000000000000000000000000000000000000000000000000000000000000000, 43813925665100000000000000000000000000000000000000000000000000000000000000000000000000, 57742752373500000000000000000000000000000000000000000000000000000000000000000000000000, 74898182289400000000000000000000000000000000000000000000000000000000000000000000000000, 95753464145500000000000000000000000000000000000000000000000000000000000000000000000000, 120807987832000000000000000000000000000000000000000000000000000000000000000000000000000, 150584795458000000000000000000000000000000000000000000000000000000000000000000000000000, 185628098993000000000000000000000000000000000000000000000000000000000000000000000000000, 226500856643000000000000000000000000000000000000000000000000000000000000000000000000000, 273782447996000000000000000000000000000000000000000000000000000000000000000000000000000, 328066476981000000000000000000000000000000000000000000000000000000000000000000000000000, 389958722126000000000000000000000000000000000000000000000000000000000000000000000000000, 460075245415000000000000000000000000000000000000000000000000000000000000000000000000000]),
  (1031063927860000, [51468170459000000000000000000000000000, 1819395225280000000000000000000000000000000000000000000, 457763292868000000000000000000000000000000000000000000000000000, 57770093595800000000000000000000000000000000000000000000000000000000, 158319530117000000000000000000000000000000000000000000000000000000000000, 47623137921300000000000000000000000000000000000000000000000000000000000000, 3550551980800000000000000000000000000000000000000000000000000000000000000000, 103603573980000000000000000000000000000000000000000000000000000000000000000000, 1560862607500000000000000000000000000000000000000000000000000000000000000000000, 14505550035600000000000000000000000000000000000000000000000000000000000000000000, 93704993136100000000000000000000000000000000000000000000000000000000000000000000, 457250418801000000000000000000000000000000000000000000000000000000000000000000000, 1788933471630000000000000000000000000000000000000000000000000000000000000000000000, 5862985822940000000000000000000000000000000000000000000000000000000000000000000000, 16635489495900000000000000000000000000000000000000000000000000000000000000000000000, 41908727744600000000000000000000000000000000000000000000000000000000000000000000000, 95601067696100000000000000000000000000000000000000000000000000000000000000000000000, 200566951088000000000000000000000000000000000000000000000000000000000000000000000000, 391832434890000000000000000000000000000000000000000000000000000000000000000000000000, 720057874804000000000000000000000000000000000000000000000000000000000000000000000000, 1255017246140000000000000000000000000000000000000000000000000000000000000000000000000, 2088891129870000000000000000000000000000000000000000000000000000000000000000000000000, 3339200233500000000000000000000000000000000000000000000000000000000000000000000000000, 5151249342540000000000000000000000000000000000000000000000000000000000000000000000000, 7699999320700000000000000000000000000000000000000000000000000000000000000000000000000, 11191330630100000000000000000000000000000000000000000000000000000000000000000000000000, 15862701551300000000000000000000000000000000000000000000000000000000000000000000000000, 21983235656400000000000000000000000000000000000000000000000000000000000000000000000000, 29853295557500000000000000000000000000000000000000000000000000000000000000000000000000, 39803614041600000000000000000000000000000000000000000000000000000000000000000000000000, 52194060574400000000000000000000000000000000000000000000000000000000000000000000000000, 67412122238100000000000000000000000000000000000000000000000000000000000000000000000000, 85871174936600000000000000000000000000000000000000000000000000000000000000000000000000, 108008614488000000000000000000000000000000000000000000000000000000000000000000000000000, 134283909184000000000000000000000000000000000000000000000000000000000000000000000000000, 165176626451000000000000000000000000000000000000000000000000000000000000000000000000000, 201184477080000000000000000000000000000000000000000000000000000000000000000000000000000, 242821411654000000000000000000000000000000000000000000000000000000000000000000000000000, 290615795551000000000000000000000000000000000000000000000000000000000000000000000000000, 345108681559000000000000000000000000000000000000000000000000000000000000000000000000000]),
  (1033167935870000, [205283715665000000000000000000000000, 44207990158900000000000000000000000000000000000000000, 27754917620300000000000000000000000000000000000000000000000000, 6089638012180000000000000000000000000000000000000000000000000000000, 24180271616100000000000000000000000000000000000000000000000000000000000, 9487082387330000000000000000000000000000000000000000000000000000000000000, 863503070078000000000000000000000000000000000000000000000000000000000000000, 29428167348600000000000000000000000000000000000000000000000000000000000000000, 501980352584000000000000000000000000000000000000000000000000000000000000000000, 5163867420560000000000000000000000000000000000000000000000000000000000000000000, 36304499619500000000000000000000000000000000000000000000000000000000000000000000, 190303049355000000000000000000000000000000000000000000000000000000000000000000000, 791645026324000000000000000000000000000000000000000000000000000000000000000000000, 2736153424990000000000000000000000000000000000000000000000000000000000000000000000, 8132993642160000000000000000000000000000000000000000000000000000000000000000000000, 21346699079600000000000000000000000000000000000000000000000000000000000000000000000, 50502787416000000000000000000000000000000000000000000000000000000000000000000000000, 109462794530000000000000000000000000000000000000000000000000000000000000000000000000, 220211950215000000000000000000000000000000000000000000000000000000000000000000000000, 415549627363000000000000000000000000000000000000000000000000000000000000000000000000, 741938337211000000000000000000000000000000000000000000000000000000000000000000000000, 1262354413370000000000000000000000000000000000000000000000000000000000000000000000000, 2058990585640000000000000000000000000000000000000000000000000000000000000000000000000, 3235682405490000000000000000000000000000000000000000000000000000000000000000000000000, 4919961003700000000000000000000000000000000000000000000000000000000000000000000000000, 7264668438340000000000000000000000000000000000000000000000000000000000000000000000000, 10449104621300000000000000000000000000000000000000000000000000000000000000000000000000, 14679703610700000000000000000000000000000000000000000000000000000000000000000000000000, 20190260353900000000000000000000000000000000000000000000000000000000000000000000000000, 27241746241200000000000000000000000000000000000000000000000000000000000000000000000000, 36121763300800000000000000000000000000000000000000000000000000000000000000000000000000, 47143693200100000000000000000000000000000000000000000000000000000000000000000000000000, 60645599313600000000000000000000000000000000000000000000000000000000000000000000000000, 76988938924900000000000000000000000000000000000000000000000000000000000000000000000000, 96557139064200000000000000000000000000000000000000000000000000000000000000000000000000, 119754084339000000000000000000000000000000000000000000000000000000000000000000000000000, 147002559066000000000000000000000000000000000000000000000000000000000000000000000000000, 178742679577000000000000000000000000000000000000000000000000000000000000000000000000000, 215430346169000000000000000000000000000000000000000000000000000000000000000000000000000, 257535738044000000000000000000000000000000000000000000000000000000000000000000000000000]),
  (1035271943890000, [724509791984000000000000000000000, 989612481489000000000000000000000000000000000000000, 1582538942930000000000000000000000000000000000000000000000000, 611237967544000000000000000000000000000000000000000000000000000000, 3546000736210000000000000000000000000000000000000000000000000000000000, 1825487048170000000000000000000000000000000000000000000000000000000000000, 203747811303000000000000000000000000000000000000000000000000000000000000000, 8137869368360000000000000000000000000000000000000000000000000000000000000000, 157603267565000000000000000000000000000000000000000000000000000000000000000000, 1798672594910000000000000000000000000000000000000000000000000000000000000000000, 13788310364200000000000000000000000000000000000000000000000000000000000000000000, 77764558635700000000000000000000000000000000000000000000000000000000000000000000, 344432525040000000000000000000000000000000000000000000000000000000000000000000000, 1256937569500000000000000000000000000000000000000000000000000000000000000000000000, 3918025124790000000000000000000000000000000000000000000000000000000000000000000000, 10723991266000000000000000000000000000000000000000000000000000000000000000000000000, 26334252720300000000000000000000000000000000000000000000000000000000000000000000000, 59012399008400000000000000000000000000000000000000000000000000000000000000000000000, 122330855887000000000000000000000000000000000000000000000000000000000000000000000000, 237187108762000000000000000000000000000000000000000000000000000000000000000000000000, 434043614828000000000000000000000000000000000000000000000000000000000000000000000000, 755281281460000000000000000000000000000000000000000000000000000000000000000000000000, 1257549038910000000000000000000000000000000000000000000000000000000000000000000000000, 2013997925520000000000000000000000000000000000000000000000000000000000000000000000000, 3116303862610000000000000000000000000000000000000000000000000000000000000000000000000, 4676405018820000000000000000000000000000000000000000000000000000000000000000000000000, 6827903738090000000000000000000000000000000000000000000000000000000000000000000000000, 9727106563270000000000000000000000000000000000000000000000000000000000000000000000000, 13553696949500000000000000000000000000000000000000000000000000000000000000000000000000, 18511052687600000000000000000000000000000000000000000000000000000000000000000000000000, 24826233399000000000000000000000000000000000000000000000000000000000000000000000000000, 32749672759900000000000000000000000000000000000000000000000000000000000000000000000000, 42554615752800000000000000000000000000000000000000000000000000000000000000000000000000, 54536343760900000000000000000000000000000000000000000000000000000000000000000000000000, 69011230352700000000000000000000000000000000000000000000000000000000000000000000000000, 86315668752400000000000000000000000000000000000000000000000000000000000000000000000000, 106804908820000000000000000000000000000000000000000000000000000000000000000000000000000, 130851837354000000000000000000000000000000000000000000000000000000000000000000000000000, 158845731071000000000000000000000000000000000000000000000000000000000000000000000000000, 191191007026000000000000000000000000000000000000000000000000000000000000000000000000000]),
  (1037375951900000, [2263413724250000000000000000000, 20413488316200000000000000000000000000000000000000, 84869976765400000000000000000000000000000000000000000000000, 58427034040600000000000000000000000000000000000000000000000000000, 499356269977000000000000000000000000000000000000000000000000000000000, 339305397871000000000000000000000000000000000000000000000000000000000000, 46645640008300000000000000000000000000000000000000000000000000000000000000, 2190989156200000000000000000000000000000000000000000000000000000000000000000, 48308026697800000000000000000000000000000000000000000000000000000000000000000, 613029462782000000000000000000000000000000000000000000000000000000000000000000, 5133671196910000000000000000000000000000000000000000000000000000000000000000000, 31201354205000000000000000000000000000000000000000000000000000000000000000000000, 147341423791000000000000000000000000000000000000000000000000000000000000000000000, 568390452698000000000000000000000000000000000000000000000000000000000000000000000, 1859913547920000000000000000000000000000000000000000000000000000000000000000000000, 5313580996620000000000000000000000000000000000000000000000000000000000000000000000, 13554525422500000000000000000000000000000000000000000000000000000000000000000000000, 31426302608900000000000000000000000000000000000000000000000000000000000000000000000, 67172056014000000000000000000000000000000000000000000000000000000000000000000000000, 133897992218000000000000000000000000000000000000000000000000000000000000000000000000, 251274136938000000000000000000000000000000000000000000000000000000000000000000000000, 447402953254000000000000000000000000000000000000000000000000000000000000000000000000, 760771734564000000000000000000000000000000000000000000000000000000000000000000000000, 1242200288170000000000000000000000000000000000000000000000000000000000000000000000000, 1956700045180000000000000000000000000000000000000000000000000000000000000000000000000, 2985172093760000000000000000000000000000000000000000000000000000000000000000000000000, 4425887147990000000000000000000000000000000000000000000000000000000000000000000000000, 6395707731300000000000000000000000000000000000000000000000000000000000000000000000000, 9031029933280000000000000000000000000000000000000000000000000000000000000000000000000, 12488437613900000000000000000000000000000000000000000000000000000000000000000000000000, 16945075045300000000000000000000000000000000000000000000000000000000000000000000000000, 22598754315200000000000000000000000000000000000000000000000000000000000000000000000000, 29667821335400000000000000000000000000000000000000000000000000000000000000000000000000, 38390809188900000000000000000000000000000000000000000000000000000000000000000000000000, 49025910161100000000000000000000000000000000000000000000000000000000000000000000000000, 61850298515800000000000000000000000000000000000000000000000000000000000000000000000000, 77159335322800000000000000000000000000000000000000000000000000000000000000000000000000, 95265684799900000000000000000000000000000000000000000000000000000000000000000000000000, 116498369043000000000000000000000000000000000000000000000000000000000000000000000000000, 141201784987000000000000000000000000000000000000000000000000000000000000000000000000000]),
  (1039479959920000, [6261371706080000000000000000, 388109845942000000000000000000000000000000000000, 4281634995380000000000000000000000000000000000000000000000, 5319333047810000000000000000000000000000000000000000000000000000, 67533635291900000000000000000000000000000000000000000000000000000000, 60926183299800000000000000000000000000000000000000000000000000000000000, 10362079251800000000000000000000000000000000000000000000000000000000000000, 574348490180000000000000000000000000000000000000000000000000000000000000000, 14456688220300000000000000000000000000000000000000000000000000000000000000000, 204446438274000000000000000000000000000000000000000000000000000000000000000000, 1873810711610000000000000000000000000000000000000000000000000000000000000000000, 12292299102800000000000000000000000000000000000000000000000000000000000000000000, 61973070108400000000000000000000000000000000000000000000000000000000000000000000, 253016315774000000000000000000000000000000000000000000000000000000000000000000000, 870030766769000000000000000000000000000000000000000000000000000000000000000000000, 2596747221900000000000000000000000000000000000000000000000000000000000000000000000, 6886691882520000000000000000000000000000000000000000000000000000000000000000000000, 16531832982600000000000000000000000000000000000000000000000000000000000000000000000, 36458798540200000000000000000000000000000000000000000000000000000000000000000000000, 74760927022900000000000000000000000000000000000000000000000000000000000000000000000, 143950508871000000000000000000000000000000000000000000000000000000000000000000000000, 262393564822000000000000000000000000000000000000000000000000000000000000000000000000, 455872709094000000000000000000000000000000000000000000000000000000000000000000000000, 759213778115000000000000000000000000000000000000000000000000000000000000000000000000, 1217909169340000000000000000000000000000000000000000000000000000000000000000000000000, 1889674316960000000000000000000000000000000000000000000000000000000000000000000000000, 2845881895870000000000000000000000000000000000000000000000000000000000000000000000000, 4172829461880000000000000000000000000000000000000000000000000000000000000000000000000, 5972808689270000000000000000000000000000000000000000000000000000000000000000000000000, 8364956828020000000000000000000000000000000000000000000000000000000000000000000000000, 11485882504000000000000000000000000000000000000000000000000000000000000000000000000000, 15490067907300000000000000000000000000000000000000000000000000000000000000000000000000, 20550057443700000000000000000000000000000000000000000000000000000000000000000000000000, 26856448983500000000000000000000000000000000000000000000000000000000000000000000000000, 34617708021500000000000000000000000000000000000000000000000000000000000000000000000000, 44059827564100000000000000000000000000000000000000000000000000000000000000000000000000, 55425857627100000000000000000000000000000000000000000000000000000000000000000000000000, 68975328154800000000000000000000000000000000000000000000000000000000000000000000000000, 84983588204100000000000000000000000000000000000000000000000000000000000000000000000000, 103741082640000000000000000000000000000000000000000000000000000000000000000000000000000]),
  (1041583967940000, [15343226842000000000000000, 6802613387870000000000000000000000000000000000, 203232237942000000000000000000000000000000000000000000000, 461313685257000000000000000000000000000000000000000000000000000, 8772276602970000000000000000000000000000000000000000000000000000000, 10569496649900000000000000000000000000000000000000000000000000000000000, 2233725890990000000000000000000000000000000000000000000000000000000000000, 146602325900000000000000000000000000000000000000000000000000000000000000000, 4224100914090000000000000000000000000000000000000000000000000000000000000000, 66721248466100000000000000000000000000000000000000000000000000000000000000000, 670531199677000000000000000000000000000000000000000000000000000000000000000000, 4755252540670000000000000000000000000000000000000000000000000000000000000000000, 25630063435900000000000000000000000000000000000000000000000000000000000000000000, 110873695142000000000000000000000000000000000000000000000000000000000000000000000, 401052292604000000000000000000000000000000000000000000000000000000000000000000000, 1251672249390000000000000000000000000000000000000000000000000000000000000000000000, 3453870345390000000000000000000000000000000000000000000000000000000000000000000000, 8590758836520000000000000000000000000000000000000000000000000000000000000000000000, 19560565472000000000000000000000000000000000000000000000000000000000000000000000000, 41285392483700000000000000000000000000000000000000000000000000000000000000000000000, 81607940690100000000000000000000000000000000000000000000000000000000000000000000000, 152361026031000000000000000000000000000000000000000000000000000000000000000000000000, 270579061239000000000000000000000000000000000000000000000000000000000000000000000000, 459808951244000000000000000000000000000000000000000000000000000000000000000000000000, 751471067501000000000000000000000000000000000000000000000000000000000000000000000000, 1186219173040000000000000000000000000000000000000000000000000000000000000000000000000, 1815250718960000000000000000000000000000000000000000000000000000000000000000000000000, 2701524783710000000000000000000000000000000000000000000000000000000000000000000000000, 3920852913580000000000000000000000000000000000000000000000000000000000000000000000000, 5562837146330000000000000000000000000000000000000000000000000000000000000000000000000, 7731638641580000000000000000000000000000000000000000000000000000000000000000000000000, 10546568911700000000000000000000000000000000000000000000000000000000000000000000000000, 14142503184900000000000000000000000000000000000000000000000000000000000000000000000000, 18670121684700000000000000000000000000000000000000000000000000000000000000000000000000, 24295989484000000000000000000000000000000000000000000000000000000000000000000000000000, 31202489118300000000000000000000000000000000000000000000000000000000000000000000000000, 39587622436200000000000000000000000000000000000000000000000000000000000000000000000000, 49664699377800000000000000000000000000000000000000000000000000000000000000000000000000, 61661931696800000000000000000000000000000000000000000000000000000000000000000000000000, 75821949250900000000000000000000000000000000000000000000000000000000000000000000000000]),
  (1043687975950000, [33316642493800000000000, 109946002792000000000000000000000000000000000, 9077688040610000000000000000000000000000000000000000000, 38114309745400000000000000000000000000000000000000000000000000, 1094541846250000000000000000000000000000000000000000000000000000000, 1771651545490000000000000000000000000000000000000000000000000000000000, 467293688625000000000000000000000000000000000000000000000000000000000000, 36438570340100000000000000000000000000000000000000000000000000000000000000, 1205138117230000000000000000000000000000000000000000000000000000000000000000, 21308517844600000000000000000000000000000000000000000000000000000000000000000, 235246633820000000000000000000000000000000000000000000000000000000000000000000, 1806376648230000000000000000000000000000000000000000000000000000000000000000000, 10422611951400000000000000000000000000000000000000000000000000000000000000000000, 47829620165500000000000000000000000000000000000000000000000000000000000000000000, 182180036268000000000000000000000000000000000000000000000000000000000000000000000, 595083391893000000000000000000000000000000000000000000000000000000000000000000000, 1709925123320000000000000000000000000000000000000000000000000000000000000000000000, 4409918438670000000000000000000000000000000000000000000000000000000000000000000000, 10373628129200000000000000000000000000000000000000000000000000000000000000000000000, 22549836608700000000000000000000000000000000000000000000000000000000000000000000000, 45783485731900000000000000000000000000000000000000000000000000000000000000000000000, 87591861750800000000000000000000000000000000000000000000000000000000000000000000000, 159077347574000000000000000000000000000000000000000000000000000000000000000000000000, 275951843819000000000000000000000000000000000000000000000000000000000000000000000000, 459639659980000000000000000000000000000000000000000000000000000000000000000000000000, 738420906761000000000000000000000000000000000000000000000000000000000000000000000000, 1148576171800000000000000000000000000000000000000000000000000000000000000000000000000, 1735495080090000000000000000000000000000000000000000000000000000000000000000000000000, 2554715521020000000000000000000000000000000000000000000000000000000000000000000000000, 3672866073810000000000000000000000000000000000000000000000000000000000000000000000000, 5168490728190000000000000000000000000000000000000000000000000000000000000000000000000, 7132741733730000000000000000000000000000000000000000000000000000000000000000000000000, 9669932826070000000000000000000000000000000000000000000000000000000000000000000000000, 12897950825600000000000000000000000000000000000000000000000000000000000000000000000000, 16948528480400000000000000000000000000000000000000000000000000000000000000000000000000, 21967385340000000000000000000000000000000000000000000000000000000000000000000000000000, 28114246392300000000000000000000000000000000000000000000000000000000000000000000000000, 35562750240300000000000000000000000000000000000000000000000000000000000000000000000000, 44500259822500000000000000000000000000000000000000000000000000000000000000000000000000, 55127589225400000000000000000000000000000000000000000000000000000000000000000000000000]),
  (1045791983970000, [64129581767800000000, 1638946936870000000000000000000000000000000, 381619546186000000000000000000000000000000000000000000, 3000473456100000000000000000000000000000000000000000000000000, 131197686186000000000000000000000000000000000000000000000000000000, 286954511521000000000000000000000000000000000000000000000000000000000, 94876247832000000000000000000000000000000000000000000000000000000000000, 8819874242080000000000000000000000000000000000000000000000000000000000000, 335736135756000000000000000000000000000000000000000000000000000000000000000, 6659864407350000000000000000000000000000000000000000000000000000000000000000, 80919857485800000000000000000000000000000000000000000000000000000000000000000, 673831519498000000000000000000000000000000000000000000000000000000000000000000, 4167695105580000000000000000000000000000000000000000000000000000000000000000000, 20312552655500000000000000000000000000000000000000000000000000000000000000000000, 81553644535600000000000000000000000000000000000000000000000000000000000000000000, 279061257623000000000000000000000000000000000000000000000000000000000000000000000, 835662774618000000000000000000000000000000000000000000000000000000000000000000000, 2236270758690000000000000000000000000000000000000000000000000000000000000000000000, 5438205456820000000000000000000000000000000000000000000000000000000000000000000000, 12182048144500000000000000000000000000000000000000000000000000000000000000000000000, 25418300265500000000000000000000000000000000000000000000000000000000000000000000000, 49857000033800000000000000000000000000000000000000000000000000000000000000000000000, 92637927322500000000000000000000000000000000000000000000000000000000000000000000000, 164109583313000000000000000000000000000000000000000000000000000000000000000000000000, 278697011064000000000000000000000000000000000000000000000000000000000000000000000000, 455832559840000000000000000000000000000000000000000000000000000000000000000000000000, 720920264207000000000000000000000000000000000000000000000000000000000000000000000000, 1106303583280000000000000000000000000000000000000000000000000000000000000000000000000, 1652207511680000000000000000000000000000000000000000000000000000000000000000000000000, 2407629050370000000000000000000000000000000000000000000000000000000000000000000000000, 3431154170420000000000000000000000000000000000000000000000000000000000000000000000000, 4791684193890000000000000000000000000000000000000000000000000000000000000000000000000, 6569059499350000000000000000000000000000000000000000000000000000000000000000000000000, 8854573278380000000000000000000000000000000000000000000000000000000000000000000000000, 11751372464000000000000000000000000000000000000000000000000000000000000000000000000000, 15374746760500000000000000000000000000000000000000000000000000000000000000000000000000, 19852309842300000000000000000000000000000000000000000000000000000000000000000000000000, 25324079233300000000000000000000000000000000000000000000000000000000000000000000000000, 31942463163100000000000000000000000000000000000000000000000000000000000000000000000000, 39872163865600000000000000000000000000000000000000000000000000000000000000000000000000]),
  (1047895991980000, [109461969783000000, 22538850435400000000000000000000000000000, 15101925602900000000000000000000000000000000000000000, 225091764014000000000000000000000000000000000000000000000000, 15109154199100000000000000000000000000000000000000000000000000000, 44915486791700000000000000000000000000000000000000000000000000000000, 18696640792000000000000000000000000000000000000000000000000000000000000, 2079074417950000000000000000000000000000000000000000000000000000000000000, 91335630276500000000000000000000000000000000000000000000000000000000000000, 2037134502500000000000000000000000000000000000000000000000000000000000000000, 27291706139100000000000000000000000000000000000000000000000000000000000000000, 246840927602000000000000000000000000000000000000000000000000000000000000000000, 1638779728010000000000000000000000000000000000000000000000000000000000000000000, 8492635974750000000000000000000000000000000000000000000000000000000000000000000, 35978141043600000000000000000000000000000000000000000000000000000000000000000000, 129081664570000000000000000000000000000000000000000000000000000000000000000000000, 403158355844000000000000000000000000000000000000000000000000000000000000000000000, 1120262574480000000000000000000000000000000000000000000000000000000000000000000000, 2818137586240000000000000000000000000000000000000000000000000000000000000000000000, 6509271303110000000000000000000000000000000000000000000000000000000000000000000000, 13965288031800000000000000000000000000000000000000000000000000000000000000000000000, 28097322353900000000000000000000000000000000000000000000000000000000000000000000000, 53436616706300000000000000000000000000000000000000000000000000000000000000000000000, 96712388180600000000000000000000000000000000000000000000000000000000000000000000000, 167517030850000000000000000000000000000000000000000000000000000000000000000000000000, 279042785317000000000000000000000000000000000000000000000000000000000000000000000000, 448869659051000000000000000000000000000000000000000000000000000000000000000000000000, 699781856927000000000000000000000000000000000000000000000000000000000000000000000000, 1060589255740000000000000000000000000000000000000000000000000000000000000000000000000, 1566931313010000000000000000000000000000000000000000000000000000000000000000000000000, 2262042909780000000000000000000000000000000000000000000000000000000000000000000000000, 3197464616540000000000000000000000000000000000000000000000000000000000000000000000000, 4433683375390000000000000000000000000000000000000000000000000000000000000000000000000, 6040693289750000000000000000000000000000000000000000000000000000000000000000000000000, 8098469842580000000000000000000000000000000000000000000000000000000000000000000000000, 10697354232600000000000000000000000000000000000000000000000000000000000000000000000000, 13938347495000000000000000000000000000000000000000000000000000000000000000000000000000, 17933316585000000000000000000000000000000000000000000000000000000000000000000000000000, 22805116619100000000000000000000000000000000000000000000000000000000000000000000000000, 28687635001600000000000000000000000000000000000000000000000000000000000000000000000000]),
  (1050000000000000, [165741172745000, 286009182134000000000000000000000000000, 562671158811000000000000000000000000000000000000000, 16093709425000000000000000000000000000000000000000000000000, 1671941944140000000000000000000000000000000000000000000000000000, 6794624297030000000000000000000000000000000000000000000000000000000, 3576346045710000000000000000000000000000000000000000000000000000000000, 477321140404000000000000000000000000000000000000000000000000000000000000, 24265310242300000000000000000000000000000000000000000000000000000000000000, 609867877999000000000000000000000000000000000000000000000000000000000000000, 9025416219740000000000000000000000000000000000000000000000000000000000000000, 88801617746900000000000000000000000000000000000000000000000000000000000000000, 633670903444000000000000000000000000000000000000000000000000000000000000000000, 3495768792630000000000000000000000000000000000000000000000000000000000000000000, 15642179166300000000000000000000000000000000000000000000000000000000000000000000, 58895502221000000000000000000000000000000000000000000000000000000000000000000000, 192007924999000000000000000000000000000000000000000000000000000000000000000000000, 554401238119000000000000000000000000000000000000000000000000000000000000000000000, 1443633292560000000000000000000000000000000000000000000000000000000000000000000000, 3440212706380000000000000000000000000000000000000000000000000000000000000000000000, 7593186173780000000000000000000000000000000000000000000000000000000000000000000000, 15677778118700000000000000000000000000000000000000000000000000000000000000000000000, 30532510072700000000000000000000000000000000000000000000000000000000000000000000000, 56478226304400000000000000000000000000000000000000000000000000000000000000000000000, 99816011372000000000000000000000000000000000000000000000000000000000000000000000000, 169395796081000000000000000000000000000000000000000000000000000000000000000000000000, 277243066041000000000000000000000000000000000000000000000000000000000000000000000000, 439227870468000000000000000000000000000000000000000000000000000000000000000000000000, 675758433247000000000000000000000000000000000000000000000000000000000000000000000000, 1012481073690000000000000000000000000000000000000000000000000000000000000000000000000, 1480968702730000000000000000000000000000000000000000000000000000000000000000000000000, 2119381645990000000000000000000000000000000000000000000000000000000000000000000000000, 2973086699140000000000000000000000000000000000000000000000000000000000000000000000000, 4095222888530000000000000000000000000000000000000000000000000000000000000000000000000, 5547205158830000000000000000000000000000000000000000000000000000000000000000000000000, 7399159951050000000000000000000000000000000000000000000000000000000000000000000000000, 9730289219890000000000000000000000000000000000000000000000000000000000000000000000000, 12629161767900000000000000000000000000000000000000000000000000000000000000000000000000, 16193932781200000000000000000000000000000000000000000000000000000000000000000000000000, 20532494108800000000000000000000000000000000000000000000000000000000000000000000000000])]
/-- All data rows of `data/spectra/T_T_spectra.txt`. -/
noncomputable def ttSpectra : List (Nat × List Nat) :=
  ttSpec0 ++
  ttSpec1 ++
  ttSpec2 ++
  ttSpec3 ++
  ttSpec4 ++
  ttSpec5 ++
  ttSpec6 ++
  ttSpec7 ++
  ttSpec8 ++
  ttSpec9 ++
  ttSpec10 ++
  ttSpec11 ++
  ttSpec12 ++
  ttSpec13 ++
  ttSpec14 ++
  ttSpec15 ++
  ttSpec16 ++
  ttSpec17 ++
  ttSpec18 ++
  ttSpec19

end TNS.Data
