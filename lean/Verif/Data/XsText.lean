/-
Generated by scripts/gen_text.py: the lines of tokamak_neutron_source/data/cross_sections/*.txt.
-/

set_option autoImplicit false
set_option maxRecDepth 100000

namespace TNS.Data

def dtTextH : List String := [
  "#ZVView-data-copy:  25-Sep-2025 13:53:35",
  "#=======================================",
  "#",
  "#name:   ENDF/B-VIII.1: H-3(D,N`)HE-4-L0",
  "#X.axis: Incident Energy",
  "#Y.axis: Cross Section",
  "#wdata:  2",
  "#ldata:  952",
  "#data...",
  "#            X            Y",
  "#          MeV        barns"]
def dtText0 : List String := [
  "        0.0001            0",
  "        0.0002   7.4327e-39",
  "        0.0003   4.0555e-31",
  "   0.000305443   8.2292e-31",
  "   0.000306733   9.7046e-31",
  "    0.00030737   1.0524e-30",
  "   0.000308003   1.1404e-30",
  "   0.000308632   1.2349e-30",
  "   0.000309258   1.3362e-30",
  "    0.00030988   1.4449e-30",
  "   0.000310499   1.5614e-30",
  "   0.000311114   1.6861e-30",
  "   0.000311725   1.8195e-30",
  "   0.000312333   1.9621e-30",
  "   0.000312938   2.1146e-30",
  "   0.000313538   2.2774e-30",
  "   0.000314135   2.4511e-30",
  "   0.000314729   2.6363e-30",
  "   0.000315319   2.8338e-30",
  "   0.000315906   3.0441e-30",
  "   0.000316489   3.2679e-30",
  "   0.000317068   3.5061e-30",
  "   0.000317644   3.7593e-30",
  "   0.000318217   4.0283e-30",
  "   0.000318786    4.314e-30",
  "   0.000319352   4.6172e-30",
  "   0.000319914   4.9387e-30",
  "   0.000320473   5.2796e-30",
  "   0.000321028   5.6407e-30",
  "    0.00032158   6.0231e-30",
  "   0.000322129   6.4277e-30",
  "   0.000322674   6.8556e-30",
  "   0.000323486   7.5431e-30",
  "    0.00032429   8.2903e-30",
  "   0.000325087   9.0993e-30",
  "   0.000325877   9.9764e-30",
  "   0.000326658   1.0924e-29",
  "   0.000327433   1.1949e-29",
  "     0.0003282   1.3053e-29",
  "   0.000328961   1.4244e-29",
  "   0.000329714   1.5526e-29",
  "    0.00033046   1.6906e-29",
  "   0.000331199   1.8386e-29",
  "   0.000331931   1.9976e-29",
  "   0.000332656   2.1679e-29",
  "   0.000333374   2.3505e-29",
  "   0.000334085   2.5455e-29",
  "    0.00033479   2.7542e-29",
  "   0.000335487   2.9767e-29",
  "   0.000336178   3.2144e-29",
  "   0.000336862   3.4673e-29",
  "    0.00033754   3.7368e-29",
  "    0.00033821   4.0231e-29",
  "   0.000338875   4.3276e-29",
  "   0.000339533   4.6505e-29",
  "   0.000340185   4.9934e-29",
  "   0.000340829   5.3562e-29",
  "   0.000341468   5.7408e-29",
  "    0.00034231    6.288e-29",
  "   0.000343144   6.8792e-29"]
def dtText1 : List String := [
  "   0.000343967   7.5146e-29",
  "   0.000344779   8.1965e-29",
  "   0.000345581   8.9273e-29",
  "   0.000346371   9.7092e-29",
  "   0.000347151   1.0545e-28",
  "   0.000347921   1.1437e-28",
  "    0.00034868   1.2387e-28",
  "   0.000349429   1.3398e-28",
  "   0.000350167   1.4473e-28",
  "   0.000350896   1.5614e-28",
  "   0.000351615   1.6824e-28",
  "   0.000352324   1.8105e-28",
  "   0.000353023   1.9459e-28",
  "   0.000353713    2.089e-28",
  "   0.000354393     2.24e-28",
  "   0.000355064   2.3991e-28",
  "   0.000355726   2.5666e-28",
  "   0.000356379   2.7427e-28",
  "   0.000357022   2.9277e-28",
  "   0.000357972   3.2228e-28",
  "     0.0003589   3.5383e-28",
  "   0.000359811   3.8767e-28",
  "     0.0003607   4.2369e-28",
  "   0.000361573   4.6216e-28",
  "   0.000362426   5.0293e-28",
  "   0.000363262   5.4628e-28",
  "   0.000364079   5.9205e-28",
  "   0.000364881   6.4052e-28",
  "   0.000365663   6.9149e-28",
  "   0.000366431   7.4527e-28",
  "   0.000367181   8.0161e-28",
  "   0.000367917   8.6084e-28",
  "   0.000368635   9.2268e-28",
  "   0.000369339   9.8747e-28",
  "    0.00037026   1.0788e-27",
  "   0.000371155   1.1753e-27",
  "   0.000372025   1.2768e-27",
  "   0.000372868   1.3834e-27",
  "   0.000373688    1.495e-27",
  "   0.000374483   1.6115e-27",
  "   0.000375255   1.7329e-27",
  "   0.000376005   1.8591e-27",
  "   0.000376733     1.99e-27",
  "   0.000377439   2.1255e-27",
  "   0.000378462   2.3374e-27",
  "   0.000379435   2.5576e-27",
  "    0.00038037   2.7879e-27",
  "   0.000381259    3.025e-27",
  "   0.000382113    3.271e-27",
  "   0.000382924   3.5225e-27",
  "   0.000383704   3.7813e-27",
  "   0.000384703   4.1396e-27",
  "   0.000385642   4.5057e-27",
  "   0.000386524   4.8778e-27",
  "   0.000387353   5.2541e-27",
  "   0.000388131   5.6328e-27",
  "   0.000389206   6.1985e-27",
  "   0.000390195   6.7667e-27",
  "   0.000391085   7.3204e-27",
  "   0.000391903   7.8677e-27"]
def dtText2 : List String := [
  "   0.000392906   8.5918e-27",
  "   0.000393786   9.2791e-27",
  "   0.000394557   9.9246e-27",
  "    0.00039553     1.08e-26",
  "   0.000396346    1.159e-26",
  "   0.000397256   1.2538e-26",
  "   0.000398234   1.3638e-26",
  "   0.000399116   1.4708e-26",
  "        0.0004   1.5862e-26",
  "   0.000401045   1.7337e-26",
  "   0.000402081   1.8929e-26",
  "   0.000403107   2.0641e-26",
  "   0.000404124   2.2486e-26",
  "   0.000405131   2.4465e-26",
  "    0.00040613   2.6592e-26",
  "   0.000407118   2.8871e-26",
  "   0.000408098   3.1314e-26",
  "   0.000409068   3.3925e-26",
  "    0.00041003    3.672e-26",
  "   0.000410982     3.97e-26",
  "   0.000411926   4.2883e-26",
  "    0.00041286   4.6271e-26",
  "   0.000413787   4.9883e-26",
  "   0.000414703    5.372e-26",
  "   0.000415612   5.7803e-26",
  "   0.000416511   6.2132e-26",
  "   0.000417402   6.6729e-26",
  "   0.000418284   7.1595e-26",
  "   0.000419159   7.6753e-26",
  "   0.000420311   8.4093e-26",
  "   0.000421452   9.2025e-26",
  "   0.000422579   1.0055e-25",
  "   0.000423692    1.097e-25",
  "   0.000424789   1.1951e-25",
  "   0.000425873      1.3e-25",
  "   0.000426942   1.4122e-25",
  "   0.000427997   1.5319e-25",
  "   0.000429038   1.6594e-25",
  "   0.000430065   1.7952e-25",
  "   0.000431079   1.9395e-25",
  "   0.000432079   2.0926e-25",
  "   0.000433066    2.255e-25",
  "    0.00043404   2.4269e-25",
  "      0.000435   2.6088e-25",
  "   0.000435948   2.8008e-25",
  "   0.000436882   3.0035e-25",
  "   0.000437805    3.217e-25",
  "   0.000438714   3.4418e-25",
  "   0.000439611   3.6781e-25",
  "   0.000440496   3.9264e-25",
  "   0.000441803   4.3222e-25",
  "    0.00044308   4.7455e-25",
  "   0.000444333   5.1994e-25",
  "   0.000445558   5.6826e-25",
  "    0.00044676   6.1984e-25",
  "   0.000447934   6.7451e-25",
  "   0.000449087   7.3262e-25",
  "   0.000450213   7.9396e-25",
  "   0.000451318   8.5892e-25",
  "   0.000452397   9.2721e-25"]
def dtText3 : List String := [
  "   0.000453457   9.9924e-25",
  "   0.000454491   1.0747e-24",
  "   0.000455506    1.154e-24",
  "    0.00045617   1.2089e-24",
  "   0.000457479   1.3244e-24",
  "   0.000458752   1.4468e-24",
  "   0.000459988   1.5758e-24",
  "   0.000461188   1.7117e-24",
  "   0.000462354   1.8542e-24",
  "   0.000463487   2.0034e-24",
  "   0.000464586   2.1591e-24",
  "   0.000465654   2.3213e-24",
  "   0.000466691   2.4899e-24",
  "   0.000467697   2.6647e-24",
  "   0.000468674   2.8454e-24",
  "   0.000470083   3.1267e-24",
  "   0.000471437   3.4219e-24",
  "   0.000472725   3.7272e-24",
  "   0.000473964   4.0449e-24",
  "   0.000475141   4.3707e-24",
  "   0.000476272   4.7072e-24",
  "   0.000476996   4.9355e-24",
  "   0.000478402    5.409e-24",
  "   0.000479724   5.8935e-24",
  "   0.000480967   6.3863e-24",
  "   0.000482135   6.8849e-24",
  "   0.000483233   7.3871e-24",
  "   0.000484264   7.8905e-24",
  "   0.000485688   8.6393e-24",
  "   0.000486998   9.3876e-24",
  "   0.000488177   1.0114e-23",
  "   0.000489262   1.0828e-23",
  "   0.000490591    1.177e-23",
  "   0.000491758   1.2659e-23",
  "   0.000493258   1.3898e-23",
  "   0.000494096   1.4639e-23",
  "   0.000495566    1.603e-23",
  "   0.000497085     1.76e-23",
  "   0.000498124   1.8756e-23",
  "   0.000499374   2.0243e-23",
  "   0.000500713   2.1959e-23",
  "    0.00050213   2.3927e-23",
  "   0.000503529   2.6032e-23",
  "    0.00050491   2.8283e-23",
  "   0.000506273   3.0684e-23",
  "   0.000507619   3.3244e-23",
  "   0.000508946   3.5968e-23",
  "   0.000510257   3.8863e-23",
  "    0.00051155   4.1936e-23",
  "   0.000512827   4.5195e-23",
  "   0.000514086   4.8645e-23",
  "   0.000515329   5.2293e-23",
  "   0.000516555   5.6147e-23",
  "   0.000517765   6.0212e-23",
  "   0.000518959   6.4496e-23",
  "   0.000520137   6.9005e-23",
  "   0.000521299   7.3746e-23",
  "   0.000522446   7.8725e-23",
  "   0.000524139   8.6664e-23",
  "   0.000525794   9.5152e-23"]
def dtText4 : List String := [
  "   0.000527419   1.0425e-22",
  "   0.000529007   1.1394e-22",
  "   0.000530566   1.2428e-22",
  "    0.00053209   1.3523e-22",
  "   0.000533586   1.4688e-22",
  "   0.000535047   1.5917e-22",
  "   0.000536482   1.7218e-22",
  "   0.000537884   1.8586e-22",
  "    0.00053926   2.0028e-22",
  "   0.000540603   2.1539e-22",
  "   0.000541922   2.3126e-22",
  "   0.000542785   2.4224e-22",
  "   0.000544487   2.6536e-22",
  "   0.000546142   2.8983e-22",
  "   0.000547749   3.1564e-22",
  "   0.000549311   3.4279e-22",
  "   0.000550828   3.7127e-22",
  "   0.000552302   4.0108e-22",
  "   0.000553734   4.3219e-22",
  "   0.000555124   4.6458e-22",
  "   0.000556474   4.9823e-22",
  "   0.000557785   5.3311e-22",
  "   0.000559059   5.6918e-22",
  "   0.000560894   6.2528e-22",
  "    0.00056266   6.8413e-22",
  "   0.000564339   7.4496e-22",
  "   0.000565954   8.0825e-22",
  "    0.00056749   8.7313e-22",
  "   0.000568966   9.4012e-22",
  "   0.000569911   9.8553e-22",
  "   0.000571746   1.0797e-21",
  "   0.000573472   1.1761e-21",
  "   0.000575096    1.274e-21",
  "   0.000576621    1.373e-21",
  "   0.000578055   1.4728e-21",
  "   0.000580036   1.6218e-21",
  "   0.000581859   1.7715e-21",
  "   0.000583501   1.9174e-21",
  "   0.000585012   2.0617e-21",
  "   0.000586865   2.2526e-21",
  "   0.000588491   2.4338e-21",
  "   0.000589917   2.6041e-21",
  "   0.000591717   2.8349e-21",
  "   0.000593227   3.0434e-21",
  "   0.000594913   3.2934e-21",
  "   0.000596725   3.5835e-21",
  "    0.00059836   3.8661e-21",
  "        0.0006   4.1704e-21",
  "   0.000601447   4.4576e-21",
  "   0.000602875   4.7593e-21",
  "   0.000604978    5.239e-21",
  "   0.000607045   5.7546e-21",
  "   0.000609064   6.3046e-21",
  "   0.000611049    6.893e-21",
  "   0.000612988   7.5179e-21",
  "   0.000614893   8.1835e-21",
  "   0.000616754   8.8873e-21",
  "   0.000618582   9.6339e-21",
  "   0.000620368    1.042e-20",
  "   0.000622122   1.1251e-20"]
def dtText5 : List String := [
  "   0.000623835   1.2123e-20",
  "   0.000625517    1.304e-20",
  "    0.00062716   1.3999e-20",
  "   0.000628773   1.5006e-20",
  "   0.000630885   1.6427e-20",
  "   0.000632938   1.7929e-20",
  "   0.000634933   1.9512e-20",
  "   0.000636872   2.1176e-20",
  "   0.000638756   2.2921e-20",
  "   0.000640586   2.4745e-20",
  "   0.000642364   2.6648e-20",
  "   0.000644091   2.8628e-20",
  "   0.000645769   3.0683e-20",
  "   0.000647398   3.2811e-20",
  "   0.000648981   3.5011e-20",
  "   0.000651275   3.8448e-20",
  "   0.000653458   4.2013e-20",
  "   0.000655558   4.5734e-20",
  "   0.000657555    4.956e-20",
  "   0.000659476   5.3521e-20",
  "   0.000661303   5.7564e-20",
  "   0.000663059    6.172e-20",
  "   0.000665309   6.7461e-20",
  "   0.000667426   7.3317e-20",
  "   0.000669417   7.9258e-20",
  "   0.000671288   8.5255e-20",
  "   0.000673048   9.1279e-20",
  "   0.000675503   1.0036e-19",
  "   0.000677716   1.0926e-19",
  "   0.000679752   1.1811e-19",
  "   0.000682173   1.2951e-19",
  "   0.000684376   1.4077e-19",
  "    0.00068631   1.5141e-19",
  "   0.000688799   1.6623e-19",
  "    0.00069019   1.7508e-19",
  "   0.000692629   1.9171e-19",
  "   0.000695154   2.1047e-19",
  "   0.000696881   2.2428e-19",
  "   0.000698959   2.4203e-19",
  "   0.000701462   2.6516e-19",
  "   0.000703615   2.8671e-19",
  "    0.00070573   3.0947e-19",
  "   0.000707796   3.3334e-19",
  "   0.000709825   3.5846e-19",
  "   0.000711807    3.847e-19",
  "   0.000713753   4.1222e-19",
  "   0.000716302   4.5107e-19",
  "    0.00071878   4.9211e-19",
  "   0.000721189   5.3535e-19",
  "    0.00072353   5.8077e-19",
  "   0.000725805   6.2837e-19",
  "   0.000728016   6.7811e-19",
  "   0.000730164   7.2996e-19",
  "   0.000732252   7.8389e-19",
  "   0.000734279   8.3985e-19",
  "   0.000736249   8.9778e-19",
  "   0.000739105   9.8848e-19",
  "   0.000741825   1.0828e-18",
  "   0.000744441   1.1814e-18",
  "    0.00074693    1.283e-18"]
def dtText6 : List String := [
  "   0.000749325   1.3884e-18",
  "   0.000751603   1.4962e-18",
  "   0.000753793   1.6073e-18",
  "   0.000756601   1.7609e-18",
  "   0.000759243    1.918e-18",
  "   0.000761728   2.0776e-18",
  "   0.000764066   2.2391e-18",
  "   0.000766264   2.4015e-18",
  "     0.0007693   2.6443e-18",
  "   0.000772097    2.888e-18",
  "   0.000774617   3.1255e-18",
  "   0.000776937   3.3602e-18",
  "   0.000779783   3.6707e-18",
  "   0.000782282   3.9653e-18",
  "   0.000784475    4.242e-18",
  "   0.000787242   4.6169e-18",
  "   0.000789566   4.9555e-18",
  "   0.000792162   5.3611e-18",
  "   0.000794952   5.8317e-18",
  "   0.000797472   6.2897e-18",
  "        0.0008   6.7828e-18",
  "    0.00080295    7.404e-18",
  "   0.000805818   8.0587e-18",
  "   0.000808607   8.7468e-18",
  "   0.000811317    9.468e-18",
  "   0.000813951   1.0222e-17",
  "   0.000816511   1.1008e-17",
  "   0.000818999   1.1826e-17",
  "   0.000821417   1.2675e-17",
  "   0.000823765   1.3554e-17",
  "   0.000827154   1.4924e-17",
  "   0.000830416   1.6363e-17",
  "   0.000833521   1.7853e-17",
  "   0.000836509   1.9406e-17",
  "   0.000839353      2.1e-17",
  "   0.000842087   2.2647e-17",
  "   0.000844689   2.4327e-17",
  "   0.000847191    2.605e-17",
  "   0.000850399   2.8427e-17",
  "   0.000853417   3.0848e-17",
  "   0.000856257   3.3299e-17",
  "   0.000858927    3.577e-17",
  "   0.000861439   3.8248e-17",
  "   0.000864944   4.1976e-17",
  "   0.000868105   4.5626e-17",
  "   0.000871014   4.9246e-17",
  "   0.000874474   5.3898e-17",
  "   0.000877625   5.8489e-17",
  "   0.000880391   6.2818e-17",
  "   0.000883954   6.8834e-17",
  "   0.000885944   7.2424e-17",
  "   0.000889437   7.9152e-17",
  "   0.000893054   8.6729e-17",
  "   0.000895529   9.2296e-17",
  "   0.000898507   9.9439e-17",
  "   0.000901483   1.0709e-16",
  "   0.000904409   1.1514e-16",
  "   0.000907253   1.2351e-16",
  "   0.000910017   1.3217e-16",
  "   0.000912703   1.4114e-16"]
def dtText7 : List String := [
  "   0.000916598   1.5515e-16",
  "   0.000920309   1.6969e-16",
  "   0.000923879   1.8487e-16",
  "   0.000927278   2.0049e-16",
  "   0.000930548   2.1667e-16",
  "   0.000933661   2.3319e-16",
  "   0.000936654   2.5017e-16",
  "   0.000940493   2.7364e-16",
  "   0.000944106   2.9759e-16",
  "   0.000947506   3.2189e-16",
  "   0.000950704   3.4643e-16",
  "   0.000953713   3.7109e-16",
  "   0.000957914   4.0825e-16",
  "   0.000961702   4.4471e-16",
  "   0.000965192   4.8094e-16",
  "   0.000969341    5.276e-16",
  "   0.000973122   5.7374e-16",
  "   0.000976442   6.1731e-16",
  "   0.000980719   6.7799e-16",
  "   0.000983108   7.1426e-16",
  "   0.000987304   7.8234e-16",
  "    0.00099165   8.5917e-16",
  "   0.000994624   9.1572e-16",
  "   0.000998205   9.8839e-16",
  "    0.00100135   1.0567e-15",
  "    0.00100542   1.1514e-15",
  "    0.00100947   1.2536e-15",
  "    0.00101352   1.3641e-15",
  "    0.00101756   1.4832e-15",
  "     0.0010216   1.6117e-15",
  "    0.00102562   1.7501e-15",
  "    0.00102964   1.8993e-15",
  "    0.00103365   2.0598e-15",
  "    0.00103765   2.2325e-15",
  "    0.00104164    2.418e-15",
  "    0.00104563   2.6175e-15",
  "     0.0010496   2.8315e-15",
  "    0.00105357   3.0612e-15",
  "    0.00105753   3.3075e-15",
  "    0.00106149   3.5715e-15",
  "    0.00106543   3.8541e-15",
  "    0.00106937   4.1569e-15",
  "    0.00107329   4.4806e-15",
  "    0.00107721   4.8269e-15",
  "    0.00108112   5.1967e-15",
  "    0.00108502   5.5919e-15",
  "    0.00108891   6.0135e-15",
  "    0.00109279   6.4635e-15",
  "    0.00109666   6.9431e-15",
  "    0.00110053   7.4545e-15",
  "    0.00110438   7.9988e-15",
  "    0.00110823   8.5786e-15",
  "    0.00111335   9.4111e-15",
  "    0.00111846   1.0315e-14",
  "    0.00112355   1.1294e-14",
  "    0.00112862   1.2356e-14",
  "    0.00113368   1.3505e-14",
  "    0.00113872   1.4747e-14",
  "    0.00114374    1.609e-14",
  "    0.00114874   1.7539e-14"]
def dtText8 : List String := [
  "    0.00115373   1.9102e-14",
  "     0.0011587   2.0786e-14",
  "    0.00116365     2.26e-14",
  "    0.00116859   2.4552e-14",
  "     0.0011735    2.665e-14",
  "     0.0011784   2.8903e-14",
  "    0.00118328   3.1322e-14",
  "    0.00118814   3.3916e-14",
  "    0.00119299   3.6696e-14",
  "    0.00119781   3.9672e-14",
  "    0.00120262   4.2857e-14",
  "    0.00120741   4.6263e-14",
  "    0.00121218   4.9901e-14",
  "    0.00121693   5.3785e-14",
  "    0.00122166   5.7929e-14",
  "    0.00122637   6.2346e-14",
  "    0.00123107   6.7052e-14",
  "    0.00123575   7.2062e-14",
  "     0.0012404   7.7391e-14",
  "    0.00124504   8.3057e-14",
  "    0.00124966   8.9076e-14",
  "    0.00125426   9.5466e-14",
  "    0.00125884   1.0225e-13",
  "     0.0012634   1.0943e-13",
  "    0.00126794   1.1705e-13",
  "    0.00127247   1.2512e-13",
  "    0.00127697   1.3365e-13",
  "    0.00128368   1.4737e-13",
  "    0.00129036   1.6229e-13",
  "    0.00129699   1.7845e-13",
  "    0.00130358   1.9598e-13",
  "    0.00131012   2.1492e-13",
  "    0.00131662    2.354e-13",
  "    0.00132307   2.5747e-13",
  "    0.00132948   2.8129e-13",
  "    0.00133584   3.0688e-13",
  "    0.00134217   3.3443e-13",
  "    0.00134844   3.6397e-13",
  "    0.00135467   3.9569e-13",
  "    0.00136086   4.2962e-13",
  "      0.001367   4.6598e-13",
  "     0.0013731   5.0478e-13",
  "    0.00137915   5.4625e-13",
  "    0.00138516   5.9042e-13",
  "    0.00139113   6.3753e-13",
  "    0.00139704    6.876e-13",
  "    0.00140292    7.409e-13",
  "    0.00140875   7.9742e-13",
  "    0.00141454   8.5747e-13",
  "    0.00142027   9.2102e-13",
  "    0.00142598    9.884e-13",
  "    0.00143353   1.0847e-12",
  "    0.00144101   1.1883e-12",
  "    0.00144841   1.2996e-12",
  "    0.00145573    1.419e-12",
  "    0.00146297    1.547e-12",
  "    0.00147014   1.6838e-12",
  "    0.00147723   1.8299e-12",
  "    0.00148424   1.9857e-12",
  "    0.00149117   2.1515e-12"]
def dtText9 : List String := [
  "    0.00149803   2.3279e-12",
  "    0.00150481   2.5152e-12",
  "    0.00151151   2.7137e-12",
  "    0.00151814   2.9239e-12",
  "    0.00152469   3.1462e-12",
  "    0.00153117    3.381e-12",
  "    0.00153757   3.6287e-12",
  "     0.0015439   3.8896e-12",
  "    0.00155016   4.1641e-12",
  "    0.00155634   4.4526e-12",
  "    0.00156547   4.9118e-12",
  "    0.00157446   5.4057e-12",
  "    0.00158327   5.9328e-12",
  "    0.00159194   6.4971e-12",
  "    0.00160043   7.0965e-12",
  "    0.00160879   7.7351e-12",
  "    0.00161698   8.4105e-12",
  "    0.00162503    9.127e-12",
  "    0.00163292   9.8815e-12",
  "    0.00164068   1.0679e-11",
  "    0.00164827   1.1515e-11",
  "    0.00165574   1.2395e-11",
  "    0.00166305   1.3314e-11",
  "    0.00167023   1.4278e-11",
  "    0.00167967   1.5639e-11",
  "    0.00168885   1.7077e-11",
  "     0.0016978   1.8591e-11",
  "    0.00170651    2.018e-11",
  "      0.001715   2.1846e-11",
  "    0.00172326   2.3585e-11",
  "     0.0017313   2.5397e-11",
  "    0.00173912    2.728e-11",
  "    0.00174673   2.9233e-11",
  "    0.00175414   3.1254e-11",
  "     0.0017649   3.4414e-11",
  "    0.00177517   3.7695e-11",
  "    0.00178507   4.1123e-11",
  "    0.00179451   4.4651e-11",
  "     0.0018036   4.8307e-11",
  "    0.00181227   5.2039e-11",
  "    0.00182062   5.5878e-11",
  "    0.00183134   6.1183e-11",
  "    0.00184145   6.6596e-11",
  "    0.00185098   7.2088e-11",
  "    0.00185996   7.7633e-11",
  "    0.00186842   8.3203e-11",
  "    0.00188025   9.1597e-11",
  "    0.00189094   9.9827e-11",
  "     0.0019008     1.08e-10",
  "    0.00191254   1.1853e-10",
  "    0.00192326   1.2892e-10",
  "    0.00193269   1.3874e-10",
  "    0.00194486   1.5239e-10",
  "    0.00195167   1.6055e-10",
  "    0.00196364   1.7584e-10",
  "    0.00197606   1.9308e-10",
  "    0.00198458   2.0576e-10",
  "    0.00199485   2.2203e-10",
  "    0.00200635   2.4163e-10",
  "      0.002019   2.6499e-10"]
def dtText10 : List String := [
  "    0.00203153   2.9009e-10",
  "    0.00204394   3.1703e-10",
  "    0.00205623    3.459e-10",
  "     0.0020684   3.7677e-10",
  "    0.00208046   4.0975e-10",
  "    0.00209239   4.4492e-10",
  "     0.0021042   4.8237e-10",
  "     0.0021159   5.2218e-10",
  "    0.00212747   5.6445e-10",
  "    0.00213892   6.0927e-10",
  "    0.00215026   6.5671e-10",
  "    0.00216148   7.0688e-10",
  "    0.00217258   7.5986e-10",
  "    0.00218356   8.1572e-10",
  "    0.00219443   8.7456e-10",
  "    0.00220517   9.3645e-10",
  "    0.00221581   1.00148e-9",
  "    0.00223155   1.10521e-9",
  "      0.002247   1.21613e-9",
  "    0.00226224   1.33508e-9",
  "    0.00227717   1.46164e-9",
  "     0.0022919    1.5967e-9",
  "    0.00230633   1.73974e-9",
  "    0.00232055   1.89169e-9",
  "    0.00233448   2.05191e-9",
  "    0.00234821   2.22138e-9",
  "    0.00236166   2.39934e-9",
  "    0.00237491   2.58681e-9",
  "    0.00238788    2.7829e-9",
  "    0.00240065   2.98869e-9",
  "    0.00241743   3.27943e-9",
  "     0.0024338   3.58685e-9",
  "    0.00244976    3.9109e-9",
  "    0.00246532   4.25149e-9",
  "    0.00248049   4.60844e-9",
  "    0.00249527   4.98154e-9",
  "    0.00250968   5.37048e-9",
  "    0.00252371   5.77492e-9",
  "    0.00253738   6.19446e-9",
  "     0.0025507   6.62865e-9",
  "    0.00257007   7.30811e-9",
  "    0.00258857   8.01386e-9",
  "    0.00260644   8.75133e-9",
  "     0.0026235   9.51054e-9",
  "    0.00263995   1.02972e-8",
  "    0.00265566   1.11006e-8",
  "     0.0026708   1.19268e-8",
  "    0.00269027   1.30686e-8",
  "    0.00270865   1.42335e-8",
  "      0.002726   1.54153e-8",
  "    0.00274237    1.6608e-8",
  "     0.0027578    1.7806e-8",
  "    0.00277942   1.96108e-8",
  "    0.00279897   2.13794e-8",
  "    0.00281703   2.31356e-8",
  "    0.00283858   2.53946e-8",
  "    0.00285827   2.76252e-8",
  "    0.00287562   2.97294e-8",
  "    0.00289803   3.26549e-8",
  "    0.00291058   3.44009e-8"]
def dtText11 : List String := [
  "    0.00293268   3.76732e-8",
  "    0.00295565    4.1358e-8",
  "    0.00297141   4.40649e-8",
  "    0.00299044   4.75367e-8",
  "    0.00301352   5.20681e-8",
  "    0.00303348   5.62894e-8",
  "    0.00305315    6.0738e-8",
  "    0.00307244   6.53925e-8",
  "    0.00309145   7.02785e-8",
  "    0.00311644   7.71833e-8",
  "    0.00314085   8.44856e-8",
  "    0.00316467   9.21844e-8",
  "    0.00318792   1.00277e-7",
  "    0.00321061   1.08758e-7",
  "    0.00323274   1.17623e-7",
  "    0.00325433   1.26864e-7",
  "    0.00327537   1.36473e-7",
  "     0.0032959   1.46439e-7",
  "     0.0033159   1.56751e-7",
  "    0.00334502   1.72886e-7",
  "    0.00337289   1.89638e-7",
  "    0.00339981   2.07138e-7",
  "    0.00342555   2.25145e-7",
  "     0.0034504   2.43796e-7",
  "    0.00347414   2.62835e-7",
  "    0.00349704   2.82405e-7",
  "    0.00352654   3.09433e-7",
  "    0.00355441   3.36989e-7",
  "    0.00358075   3.64925e-7",
  "    0.00360561   3.93101e-7",
  "    0.00362908   4.21381e-7",
  "    0.00366198   4.63947e-7",
  "    0.00369178    5.0562e-7",
  "    0.00371934   5.46959e-7",
  "    0.00375332    6.0187e-7",
  "     0.0037833   6.54165e-7",
  "    0.00380973   7.03428e-7",
  "    0.00384324   7.70391e-7",
  "    0.00387151   8.31033e-7",
  "    0.00390324   9.03878e-7",
  "    0.00393753   9.88613e-7",
  "    0.00396864   1.07125e-6",
  "         0.004    1.1604e-6",
  "    0.00402799   1.24534e-6",
  "    0.00406858   1.37785e-6",
  "    0.00410788    1.5173e-6",
  "     0.0041455   1.66179e-6",
  "    0.00418188   1.81242e-6",
  "    0.00421669   1.96712e-6",
  "    0.00425032   2.12705e-6",
  "    0.00427195   2.23558e-6",
  "    0.00431418    2.4609e-6",
  "    0.00435414   2.69145e-6",
  "    0.00439194   2.92596e-6",
  "    0.00442768    3.1632e-6",
  "    0.00446145   3.40197e-6",
  "    0.00450837   3.75865e-6",
  "    0.00455185   4.11665e-6",
  "    0.00459126   4.46526e-6",
  "    0.00462772   4.80942e-6"]
def dtText12 : List String := [
  "    0.00467269   5.26419e-6",
  "     0.0047124     5.695e-6",
  "    0.00476386   6.29652e-6",
  "    0.00479276   6.65685e-6",
  "    0.00484375   7.33446e-6",
  "     0.0048969   8.10074e-6",
  "    0.00493348   8.66563e-6",
  "    0.00497773   9.39229e-6",
  "    0.00502857   1.02897e-5",
  "    0.00508351   1.13387e-5",
  "    0.00513645   1.24315e-5",
  "    0.00518658    1.3545e-5",
  "    0.00523402   1.46731e-5",
  "    0.00527889     1.581e-5",
  "     0.0053213   1.69504e-5",
  "    0.00538088   1.86652e-5",
  "    0.00543494   2.03421e-5",
  "    0.00548503   2.20037e-5",
  "     0.0055469   2.42079e-5",
  "    0.00560161   2.63041e-5",
  "    0.00564993   2.82761e-5",
  "    0.00571129   3.09525e-5",
  "    0.00576316   3.33724e-5",
  "    0.00582148   3.62743e-5",
  "    0.00588462   3.96433e-5",
  "    0.00594203   4.29226e-5",
  "         0.006    4.6453e-5",
  "    0.00605809   5.02302e-5",
  "    0.00611305   5.40292e-5",
  "    0.00618955   5.96987e-5",
  "    0.00626059   6.53826e-5",
  "    0.00632508   7.09114e-5",
  "    0.00638483   7.63633e-5",
  "    0.00645867   8.35584e-5",
  "    0.00652398    9.0365e-5",
  "    0.00660876   9.98537e-5",
  "    0.00665644  0.000105529",
  "    0.00674072  0.000116186",
  "    0.00682874  0.000128213",
  "    0.00688942  0.000137063",
  "    0.00696294  0.000148427",
  "    0.00702927  0.000159317",
  "    0.00711411  0.000174176",
  "    0.00719117  0.000188599",
  "     0.0072626  0.000202795",
  "    0.00735093  0.000221491",
  "    0.00742909  0.000239141",
  "    0.00753062   0.00026369",
  "     0.0076381  0.000291778",
  "    0.00772701   0.00031673",
  "    0.00782342   0.00034563",
  "    0.00791122  0.000373691",
  "     0.0080295  0.000414276",
  "    0.00811492  0.000445704",
  "    0.00822061  0.000487102",
  "    0.00831422  0.000526183",
  "    0.00843591  0.000580541",
  "    0.00856486  0.000642733",
  "    0.00867163  0.000697977",
  "    0.00878751   0.00076195"]
def dtText13 : List String := [
  "    0.00889312  0.000824054",
  "         0.009   0.00089074",
  "    0.00911931  0.000970152",
  "    0.00927164   0.00107918",
  "    0.00940108   0.00117887",
  "    0.00954736   0.00129968",
  "     0.0097006   0.00143594",
  "    0.00980648   0.00153614",
  "    0.00993507   0.00166472",
  "     0.0100597   0.00179705",
  "     0.0102259   0.00198564",
  "     0.0104023   0.00220145",
  "     0.0105486   0.00239317",
  "     0.0107076   0.00261517",
  "     0.0108528   0.00283066",
  "         0.011     0.003062",
  "     0.0111733   0.00335274",
  "     0.0113205    0.0036149",
  "     0.0114867   0.00392837",
  "     0.0116674   0.00429108",
  "     0.0118881   0.00476572",
  "     0.0120579   0.00515644",
  "     0.0122261   0.00556673",
  "     0.0124349   0.00610789",
  "     0.0126206   0.00661936",
  "     0.0128629   0.00733144",
  "     0.0131208   0.00814677",
  "     0.0133353   0.00887128",
  "      0.013569   0.00971036",
  "     0.0137828    0.0105248",
  "         0.014     0.011399",
  "     0.0142356    0.0124105",
  "     0.0145377    0.0137947",
  "     0.0147954    0.0150559",
  "     0.0150878    0.0165785",
  "     0.0153108    0.0178076",
  "     0.0156516    0.0198007",
  "         0.016     0.021986",
  "     0.0163422    0.0243034",
  "     0.0166343    0.0264037",
  "     0.0169657    0.0289269",
  "     0.0173281    0.0318598",
  "     0.0176608    0.0347161",
  "         0.018     0.037791",
  "       0.01845    0.0421749",
  "     0.0188259    0.0460733",
  "     0.0192371    0.0505896",
  "     0.0197424    0.0565051",
  "          0.02     0.059678",
  "     0.0204823    0.0659741",
  "     0.0208516    0.0710597",
  "     0.0214181    0.0793108",
  "         0.022     0.088359",
  "      0.022668    0.0995979",
  "      0.023135     0.107932",
  "     0.0237081     0.118698",
  "     0.0242413     0.129308",
  "     0.0248553     0.142261",
  "     0.0256127     0.159214",
  "      0.026242     0.174191"]
def dtText14 : List String := [
  "     0.0268568     0.189671",
  "     0.0276136     0.209727",
  "     0.0282425     0.227316",
  "     0.0292338      0.25683",
  "          0.03      0.28096",
  "         0.035      0.47073",
  "          0.04      0.71636",
  "         0.045       1.0173",
  "          0.05       1.3702",
  "         0.055       1.7686",
  "          0.06       2.2021",
  "          0.07       3.1134",
  "         0.075       3.5535",
  "          0.08       3.9571",
  "         0.085       4.3068",
  "          0.09       4.5902",
  "         0.095       4.8005",
  "           0.1        4.937",
  "         0.102       4.9718",
  "         0.104       4.9959",
  "         0.108       5.0142",
  "         0.112       4.9969",
  "         0.114       4.9766",
  "          0.12       4.8769",
  "         0.125       4.7592",
  "          0.13       4.6194",
  "          0.14       4.3027",
  "          0.15       3.9704",
  "          0.16       3.6475",
  "          0.17       3.3465",
  "          0.18       3.0723",
  "          0.19       2.8256",
  "           0.2       2.6051",
  "          0.22       2.2332",
  "          0.24       1.9369",
  "          0.26       1.6985",
  "          0.28       1.5046",
  "           0.3       1.3448",
  "          0.32       1.2116",
  "          0.34       1.0994",
  "          0.36       1.0039",
  "          0.38      0.92182",
  "           0.4      0.85074",
  "          0.42       0.7887",
  "          0.44       0.7342",
  "          0.46        0.686",
  "          0.48      0.64315",
  "           0.5      0.60485",
  "          0.55      0.52504",
  "           0.6      0.46249",
  "          0.65       0.4124",
  "           0.7      0.37157",
  "          0.75      0.33778",
  "           0.8      0.30944",
  "          0.85      0.28541",
  "           0.9      0.26483",
  "          0.95      0.24705",
  "             1      0.23158",
  "           1.1      0.20607",
  "           1.2      0.18603"]
def dtText15 : List String := [
  "           1.3      0.16999",
  "           1.4      0.15695",
  "           1.5       0.1462",
  "           1.6      0.13725",
  "           1.7      0.12971",
  "           1.8      0.12333",
  "           1.9      0.11788",
  "             2       0.1132",
  "           2.1      0.10916",
  "           2.2      0.10567",
  "           2.3      0.10263",
  "           2.4     0.099995",
  "           2.5     0.097697",
  "           2.6     0.095695",
  "           2.7     0.093952",
  "           2.8     0.092438",
  "             3     0.089992",
  "           3.2     0.088184",
  "           3.4     0.086877",
  "           3.6     0.085975",
  "           3.8     0.085262",
  "           4.8     0.081523",
  "           5.2     0.079509",
  "           5.8     0.075695",
  "           6.6     0.070442",
  "             7     0.067979",
  "             8     0.061069",
  "           8.5     0.057897",
  "             9      0.05539",
  "           9.5      0.05325",
  "         10.25     0.050531",
  "          11.4     0.046823",
  "            12      0.04508",
  "            13     0.042479",
  "         13.36     0.041603",
  "            14     0.040323",
  "          14.5     0.039363",
  "          15.5     0.037235",
  "            16     0.036235",
  "          16.5     0.035332",
  "            17     0.034591",
  "            18     0.033455",
  "            21     0.030484",
  "            23     0.028484",
  "            25     0.026366",
  "          26.5     0.024876",
  "            28     0.023498",
  "         29.17      0.02251",
  "            32     0.020367",
  "            36     0.017537",
  "            38     0.016182",
  "            40     0.014962"]
def dtTextE : List String := [
  "//",
  "#-------------------------------------------------------------------------------"]
/-- The lines of `data/cross_sections/D_T_He_n.txt`. -/
def dtText : List String :=
  dtTextH ++
  dtText0 ++
  dtText1 ++
  dtText2 ++
  dtText3 ++
  dtText4 ++
  dtText5 ++
  dtText6 ++
  dtText7 ++
  dtText8 ++
  dtText9 ++
  dtText10 ++
  dtText11 ++
  dtText12 ++
  dtText13 ++
  dtText14 ++
  dtText15 ++
  dtTextE

def ddnTextH : List String := [
  "#ZVView-data-copy:  25-Sep-2025 13:57:03",
  "#=======================================",
  "#",
  "#name:   ENDF/B-VIII.1: H-2(D,N`)HE-3-L0",
  "#X.axis: Incident Energy",
  "#Y.axis: Cross Section",
  "#wdata:  2",
  "#ldata:  132",
  "#data...",
  "#            X            Y",
  "#          MeV        barns"]
def ddnText0 : List String := [
  "          2e-5            0",
  "       0.00062   5.4436e-23",
  "       0.00122   2.9905e-16",
  "       0.00182   2.9393e-13",
  "       0.00242   1.7532e-11",
  "       0.00302   2.8075e-10",
  "       0.00362   2.14738e-9",
  "       0.00422   1.03377e-8",
  "       0.00482   3.64173e-8",
  "       0.00542   1.02728e-7",
  "       0.00602   2.45799e-7",
  "       0.00662   5.18561e-7",
  "       0.00722   9.91125e-7",
  "       0.00782   1.75022e-6",
  "       0.00842   2.89756e-6",
  "       0.00902   4.54751e-6",
  "       0.00962   6.82436e-6",
  "       0.01022   9.85944e-6",
  "       0.01082   1.37884e-5",
  "       0.01142   1.87484e-5",
  "       0.01202    2.4876e-5",
  "       0.01262   3.23049e-5",
  "       0.01322   4.11647e-5",
  "       0.01382    5.1579e-5",
  "       0.01442   6.36647e-5",
  "       0.01502   7.75312e-5",
  "       0.01562   9.32795e-5",
  "       0.01622  0.000111003",
  "       0.01682  0.000130784",
  "       0.01742    0.0001527",
  "       0.01802  0.000176817",
  "       0.01862  0.000203194",
  "       0.01922   0.00023188",
  "       0.01982  0.000262919",
  "       0.02042  0.000296344",
  "       0.02102  0.000332185",
  "       0.02162  0.000370462",
  "       0.02222  0.000411191",
  "       0.02282  0.000454381",
  "       0.02342  0.000500036",
  "       0.02402  0.000548156",
  "       0.02462  0.000598734",
  "       0.02522  0.000651761",
  "       0.02582  0.000707223",
  "       0.02642  0.000765103",
  "       0.02702  0.000825382",
  "       0.02762  0.000888035",
  "       0.02822  0.000953038",
  "       0.02882   0.00102036",
  "       0.02942   0.00108998",
  "       0.03062   0.00123595",
  "       0.03182   0.00139069",
  "       0.03302    0.0015539",
  "       0.03422   0.00172528",
  "       0.03482   0.00181394",
  "       0.03602   0.00199698",
  "       0.03722   0.00218739",
  "       0.03842   0.00238487",
  "       0.03962   0.00258908",
  "       0.04082   0.00279971"]
def ddnText1 : List String := [
  "       0.04322   0.00323902",
  "       0.04442    0.0034671",
  "       0.04622   0.00381892",
  "       0.04802   0.00418157",
  "       0.05162   0.00493582",
  "       0.05402   0.00545748",
  "       0.05642   0.00599214",
  "       0.05942   0.00667629",
  "       0.06602   0.00823042",
  "       0.07022   0.00924539",
  "       0.07622     0.010718",
  "       0.10382    0.0175562",
  "       0.11942    0.0213075",
  "       0.12782    0.0232668",
  "       0.14462    0.0270404",
  "       0.15362    0.0289786",
  "       0.16262    0.0308578",
  "       0.17222    0.0327974",
  "       0.19202    0.0365898",
  "       0.20282    0.0385436",
  "       0.21422    0.0405213",
  "       0.22622    0.0425131",
  "       0.23882    0.0445098",
  "       0.26462    0.0483167",
  "       0.29342    0.0521624",
  "       0.30902    0.0540861",
  "       0.32582    0.0560445",
  "       0.34382    0.0580227",
  "       0.36242    0.0599475",
  "       0.38282    0.0619323",
  "       0.42722    0.0658565",
  "       0.45182     0.067827",
  "       0.47822    0.0697995",
  "       0.50702    0.0717997",
  "       0.53762     0.073769",
  "       0.57002    0.0756974",
  "       0.60482    0.0776086",
  "       0.64202    0.0794891",
  "       0.68282    0.0813816",
  "       0.72602    0.0832159",
  "       0.77342     0.085052",
  "       0.82382    0.0868242",
  "       0.87842    0.0885584",
  "       0.93722    0.0902348",
  "       1.00082    0.0918509",
  "       1.06922    0.0933887",
  "       1.14302    0.0948497",
  "       1.22522    0.0962751",
  "       1.31882    0.0976877",
  "       1.42022    0.0990115",
  "       1.64042     0.101263",
  "       1.76222     0.102189",
  "       1.88762     0.102928",
  "       2.24882     0.104232",
  "       2.41442     0.104534",
  "       2.56202       0.1046",
  "       2.73122     0.104442",
  "       2.96222     0.103952",
  "       3.34742     0.102844",
  "       3.80042       0.1013"]
def ddnText2 : List String := [
  "       5.07362    0.0963246",
  "       5.54162    0.0946307",
  "       6.07202    0.0929275",
  "       6.71162    0.0910993",
  "       10.6902    0.0806382",
  "       11.8458    0.0777126",
  "        13.227     0.074404",
  "       14.8326    0.0707254",
  "       16.3086    0.0674803",
  "       17.7006    0.0645557",
  "       19.0938    0.0617629",
  "            20    0.0591556"]
def ddnTextE : List String := [
  "//",
  "#-------------------------------------------------------------------------------"]
/-- The lines of `data/cross_sections/D_D_He3_n.txt`. -/
def ddnText : List String :=
  ddnTextH ++
  ddnText0 ++
  ddnText1 ++
  ddnText2 ++
  ddnTextE

def ddpTextH : List String := [
  "#ZVView-data-copy:  25-Sep-2025 13:55:38",
  "#=======================================",
  "#",
  "#name:   ENDF/B-VIII.1: H-2(D,P`)H-3-L0",
  "#X.axis: Incident Energy",
  "#Y.axis: Cross Section",
  "#wdata:  2",
  "#ldata:  127",
  "#data...",
  "#            X            Y",
  "#          MeV        barns"]
def ddpText0 : List String := [
  "          2e-5            0",
  "       0.00062     5.92e-23",
  "       0.00122   3.2462e-16",
  "       0.00182   3.1852e-13",
  "       0.00242   1.8971e-11",
  "       0.00302   3.0342e-10",
  "       0.00362   2.31819e-9",
  "       0.00422   1.11478e-8",
  "       0.00482   3.92274e-8",
  "       0.00542   1.10529e-7",
  "       0.00602    2.6416e-7",
  "       0.00662   5.56647e-7",
  "       0.00722   1.06267e-6",
  "       0.00782   1.87433e-6",
  "       0.00842   3.09934e-6",
  "       0.00902   4.85841e-6",
  "       0.00962   7.28226e-6",
  "       0.01022   1.05086e-5",
  "       0.01082   1.46789e-5",
  "       0.01142    1.9936e-5",
  "       0.01202   2.64211e-5",
  "       0.01262    3.4272e-5",
  "       0.01322   4.36213e-5",
  "       0.01382   5.45948e-5",
  "       0.01442   6.73108e-5",
  "       0.01502    8.1879e-5",
  "       0.01562   9.84001e-5",
  "       0.01622  0.000116965",
  "       0.01682  0.000137657",
  "       0.01742  0.000160546",
  "       0.01802  0.000185698",
  "       0.01862  0.000213164",
  "       0.01922  0.000242991",
  "       0.01982  0.000275216",
  "       0.02042  0.000309867",
  "       0.02102  0.000346965",
  "       0.02162  0.000386525",
  "       0.02222  0.000428555",
  "       0.02282  0.000473057",
  "       0.02342  0.000520027",
  "       0.02402  0.000569457",
  "       0.02462  0.000621332",
  "       0.02522  0.000675635",
  "       0.02582  0.000732344",
  "       0.02642  0.000791434",
  "       0.02702  0.000852876",
  "       0.02762  0.000916639",
  "       0.02822   0.00098269",
  "       0.02882   0.00105099",
  "       0.03002   0.00119419",
  "       0.03122   0.00134593",
  "       0.03242   0.00150585",
  "       0.03362   0.00167359",
  "       0.03422   0.00176029",
  "       0.03542   0.00193909",
  "       0.03662   0.00212481",
  "       0.03782   0.00231706",
  "       0.03902   0.00251549",
  "       0.04022   0.00271974",
  "       0.04262   0.00314429"]
def ddpText1 : List String := [
  "       0.04442   0.00347542",
  "       0.04622   0.00381626",
  "       0.04802   0.00416578",
  "       0.05042   0.00464367",
  "       0.05282    0.0051332",
  "       0.05582   0.00575856",
  "       0.05942   0.00652436",
  "       0.06422   0.00756339",
  "       0.08462    0.0120249",
  "       0.09122    0.0134388",
  "       0.09782    0.0148245",
  "       0.10442    0.0161782",
  "       0.11102    0.0174974",
  "       0.11762    0.0187807",
  "       0.12482    0.0201392",
  "       0.13202    0.0214546",
  "       0.13982     0.022832",
  "       0.15542    0.0254438",
  "       0.16442    0.0268688",
  "       0.17402     0.028327",
  "       0.18362    0.0297251",
  "       0.20402     0.032513",
  "       0.21602    0.0340468",
  "       0.22802    0.0355097",
  "       0.24122    0.0370438",
  "       0.25562    0.0386355",
  "       0.28622    0.0417675",
  "       0.32102    0.0449781",
  "       0.34082    0.0466629",
  "       0.36182    0.0483511",
  "       0.38462    0.0500795",
  "       0.40802    0.0517502",
  "       0.43382    0.0534823",
  "       0.46142    0.0552211",
  "       0.49142    0.0569917",
  "       0.55622    0.0604521",
  "       0.59282    0.0622174",
  "       0.63242    0.0639944",
  "       0.67382    0.0657173",
  "       0.71762    0.0674011",
  "       0.80822    0.0704673",
  "       0.86162    0.0720394",
  "       0.92882    0.0738427",
  "       1.10342    0.0780678",
  "       1.21562    0.0802804",
  "       1.27982    0.0812652",
  "       1.57802    0.0850236",
  "       1.66682    0.0858875",
  "       1.90802    0.0879028",
  "       2.15282    0.0894172",
  "       2.29862    0.0900291",
  "       2.45522    0.0904913",
  "       2.63102    0.0908106",
  "       2.84102      0.09098",
  "       3.13922    0.0909743",
  "       3.48662    0.0907614",
  "       3.88142    0.0903131",
  "       4.40462    0.0894839",
  "       6.82322    0.0848363",
  "       7.82822    0.0826057"]
def ddpText2 : List String := [
  "       12.5046    0.0715927",
  "        13.695    0.0689833",
  "       14.9166    0.0664514",
  "       16.1772    0.0639809",
  "         17.49    0.0615453",
  "       18.8388    0.0591708",
  "            20    0.0568623"]
def ddpTextE : List String := [
  "//",
  "#-------------------------------------------------------------------------------"]
/-- The lines of `data/cross_sections/D_D_T_p.txt`. -/
def ddpText : List String :=
  ddpTextH ++
  ddpText0 ++
  ddpText1 ++
  ddpText2 ++
  ddpTextE

def ttTextH : List String := [
  "#ZVView-data-copy:  25-Sep-2025 07:45:02",
  "#=======================================",
  "#",
  "#name:   ENDF/B-VIII.1: H-3(T,2N)HE-4",
  "#X.axis: Incident Energy",
  "#Y.axis: Cross Section",
  "#wdata:  2",
  "#ldata:  771",
  "#data...",
  "#            X            Y",
  "#          MeV        barns"]
def ttText0 : List String := [
  "        0.0005   3.1052e-31",
  "   0.000501166   3.3878e-31",
  "   0.000502332    3.695e-31",
  "   0.000503497   4.0288e-31",
  "   0.000504663   4.3914e-31",
  "   0.000505829   4.7851e-31",
  "   0.000506994   5.2127e-31",
  "    0.00050816   5.6768e-31",
  "   0.000509326   6.1803e-31",
  "   0.000510492   6.7266e-31",
  "   0.000511657    7.319e-31",
  "   0.000512823   7.9612e-31",
  "   0.000513989   8.6573e-31",
  "   0.000515154   9.4116e-31",
  "    0.00051632   1.0229e-30",
  "   0.000517486   1.1113e-30",
  "   0.000518652   1.2071e-30",
  "   0.000519817   1.3108e-30",
  "   0.000520983    1.423e-30",
  "   0.000522149   1.5444e-30",
  "   0.000523315   1.6756e-30",
  "    0.00052448   1.8176e-30",
  "   0.000525813   1.9939e-30",
  "   0.000526978   2.1615e-30",
  "   0.000528144   2.3425e-30",
  "    0.00052931   2.5381e-30",
  "   0.000530642   2.7807e-30",
  "   0.000531974   3.0455e-30",
  "   0.000533306   3.3343e-30",
  "   0.000534472   3.6084e-30",
  "   0.000535804   3.9481e-30",
  "   0.000537137   4.3184e-30",
  "   0.000538469   4.7217e-30",
  "   0.000539801    5.161e-30",
  "   0.000541134   5.6394e-30",
  "   0.000542466   6.1599e-30",
  "   0.000543798   6.7264e-30",
  "    0.00054513   7.3426e-30",
  "   0.000546463   8.0126e-30",
  "   0.000547795    8.741e-30",
  "   0.000549127   9.5324e-30",
  "   0.000550459   1.0392e-29",
  "   0.000551791   1.1326e-29",
  "   0.000553124    1.234e-29",
  "   0.000554456   1.3441e-29",
  "   0.000555788   1.4635e-29",
  "   0.000557121    1.593e-29",
  "   0.000558453   1.7334e-29",
  "   0.000559785   1.8857e-29",
  "   0.000561117   2.0507e-29",
  "    0.00056245   2.2295e-29",
  "   0.000563782   2.4232e-29",
  "   0.000565114   2.6328e-29",
  "   0.000566446   2.8598e-29",
  "   0.000567779   3.1055e-29",
  "   0.000569111   3.3712e-29",
  "   0.000570443   3.6587e-29",
  "   0.000571775   3.9694e-29",
  "   0.000573108   4.3054e-29",
  "   0.000574607   4.7158e-29"]
def ttText1 : List String := [
  "   0.000576105   5.1636e-29",
  "   0.000577604   5.6518e-29",
  "   0.000579103   6.1839e-29",
  "   0.000580602   6.7639e-29",
  "     0.0005821   7.3956e-29",
  "   0.000583599   8.0835e-29",
  "   0.000585098   8.8323e-29",
  "   0.000586597   9.6472e-29",
  "   0.000588096   1.0534e-28",
  "   0.000589594   1.1498e-28",
  "   0.000591093   1.2546e-28",
  "   0.000592592   1.3685e-28",
  "   0.000594091   1.4922e-28",
  "   0.000595589   1.6266e-28",
  "   0.000597088   1.7725e-28",
  "   0.000598587   1.9309e-28",
  "   0.000600086   2.1028e-28",
  "   0.000601585   2.2892e-28",
  "   0.000603083   2.4913e-28",
  "   0.000604582   2.7105e-28",
  "   0.000606081   2.9479e-28",
  "    0.00060758   3.2052e-28",
  "   0.000609245   3.5162e-28",
  "   0.000610744   3.8205e-28",
  "   0.000612243   4.1499e-28",
  "   0.000613908   4.5477e-28",
  "   0.000615407   4.9367e-28",
  "   0.000616906   5.3572e-28",
  "   0.000618571   5.8646e-28",
  "   0.000620236   6.4177e-28",
  "   0.000621902   7.0204e-28",
  "   0.000623567   7.6769e-28",
  "   0.000625232   8.3918e-28",
  "   0.000626898   9.1699e-28",
  "   0.000628563   1.0017e-27",
  "   0.000630228   1.0938e-27",
  "   0.000631894   1.1939e-27",
  "   0.000633559   1.3028e-27",
  "   0.000635224   1.4211e-27",
  "    0.00063689   1.5496e-27",
  "   0.000638555   1.6891e-27",
  "    0.00064022   1.8406e-27",
  "   0.000641885    2.005e-27",
  "   0.000643551   2.1834e-27",
  "   0.000645216   2.3768e-27",
  "   0.000646882   2.5865e-27",
  "   0.000648547   2.8138e-27",
  "   0.000650212     3.06e-27",
  "   0.000651877   3.3268e-27",
  "   0.000653543   3.6156e-27",
  "   0.000655375   3.9608e-27",
  "   0.000657206   4.3374e-27",
  "   0.000659038   4.7479e-27",
  "    0.00066087   5.1953e-27",
  "   0.000662702   5.6828e-27",
  "   0.000664534   6.2136e-27",
  "   0.000666366   6.7914e-27",
  "   0.000668243   7.4367e-27",
  "   0.000670145   8.1494e-27",
  "   0.000672046   8.9269e-27"]
def ttText2 : List String := [
  "   0.000673947   9.7747e-27",
  "   0.000675848   1.0699e-26",
  "   0.000677749   1.1706e-26",
  "   0.000679651   1.2803e-26",
  "   0.000681552   1.3998e-26",
  "   0.000683453   1.5298e-26",
  "   0.000685354   1.6712e-26",
  "   0.000687255   1.8251e-26",
  "   0.000689157   1.9924e-26",
  "   0.000691058   2.1743e-26",
  "   0.000692959   2.3719e-26",
  "    0.00069486   2.5865e-26",
  "   0.000696762   2.8195e-26",
  "   0.000698663   3.0724e-26",
  "   0.000700564   3.3468e-26",
  "   0.000702465   3.6445e-26",
  "   0.000704366   3.9673e-26",
  "   0.000706268   4.3171e-26",
  "   0.000708359   4.7357e-26",
  "    0.00071026   5.1496e-26",
  "   0.000712161   5.5977e-26",
  "   0.000714253   6.1335e-26",
  "   0.000716344   6.7178e-26",
  "   0.000718435   7.3548e-26",
  "   0.000720527    8.049e-26",
  "   0.000722618   8.8053e-26",
  "   0.000724709   9.6288e-26",
  "   0.000726801   1.0525e-25",
  "   0.000728892   1.1501e-25",
  "   0.000730983   1.2562e-25",
  "   0.000733075   1.3715e-25",
  "   0.000735166   1.4969e-25",
  "   0.000737257   1.6331e-25",
  "   0.000739349   1.7811e-25",
  "    0.00074144   1.9418e-25",
  "   0.000743531   2.1161e-25",
  "   0.000745623   2.3053e-25",
  "   0.000747714   2.5105e-25",
  "   0.000749805   2.7329e-25",
  "   0.000751897    2.974e-25",
  "   0.000754178   3.2601e-25",
  "   0.000756269    3.545e-25",
  "   0.000758551   3.8828e-25",
  "   0.000760832   4.2511e-25",
  "   0.000763114   4.6523e-25",
  "   0.000765395   5.0894e-25",
  "   0.000767677   5.5652e-25",
  "   0.000769958   6.0831e-25",
  "    0.00077224   6.6465e-25",
  "   0.000774521   7.2593e-25",
  "   0.000776802   7.9254e-25",
  "   0.000779084   8.6493e-25",
  "   0.000781365   9.4356e-25",
  "   0.000783647   1.0289e-24",
  "   0.000785928   1.1216e-24",
  "    0.00078821   1.2222e-24",
  "   0.000790681   1.3408e-24",
  "   0.000792963   1.4599e-24",
  "   0.000795244   1.5889e-24",
  "   0.000797716   1.7409e-24"]
def ttText3 : List String := [
  "   0.000800187   1.9067e-24",
  "   0.000802659   2.0873e-24",
  "    0.00080513   2.2841e-24",
  "   0.000807602   2.4983e-24",
  "   0.000810074   2.7316e-24",
  "   0.000812545   2.9853e-24",
  "   0.000815017   3.2614e-24",
  "   0.000817488   3.5615e-24",
  "    0.00081996   3.8876e-24",
  "   0.000822431   4.2419e-24",
  "   0.000824903   4.6267e-24",
  "   0.000827375   5.0444e-24",
  "   0.000829846   5.4977e-24",
  "   0.000832318   5.9893e-24",
  "   0.000834789   6.5224e-24",
  "   0.000837451   7.1467e-24",
  "   0.000840113   7.8272e-24",
  "   0.000842774   8.5688e-24",
  "   0.000845436   9.3766e-24",
  "   0.000848098   1.0256e-23",
  "    0.00085076   1.1214e-23",
  "   0.000853421   1.2255e-23",
  "   0.000856083   1.3388e-23",
  "   0.000858125   1.4323e-23",
  "   0.000860332   1.5403e-23",
  "   0.000862539    1.656e-23",
  "   0.000864746   1.7799e-23",
  "   0.000866953   1.9126e-23",
  "    0.00086916   2.0545e-23",
  "   0.000871367   2.2064e-23",
  "   0.000873574   2.3689e-23",
  "   0.000875781   2.5426e-23",
  "   0.000877988   2.7283e-23",
  "   0.000880195   2.9269e-23",
  "   0.000882402    3.139e-23",
  "   0.000884609   3.3656e-23",
  "   0.000886816   3.6076e-23",
  "   0.000889023   3.8661e-23",
  "    0.00089123   4.1419e-23",
  "   0.000893438   4.4363e-23",
  "    0.00089638   4.8596e-23",
  "   0.000899323    5.321e-23",
  "   0.000902266   5.8236e-23",
  "   0.000905208   6.3707e-23",
  "   0.000908151   6.9662e-23",
  "   0.000911094    7.614e-23",
  "   0.000914037   8.3185e-23",
  "   0.000916979   9.0841e-23",
  "   0.000919922   9.9161e-23",
  "   0.000922865    1.082e-22",
  "   0.000925808   1.1801e-22",
  "    0.00092875   1.2865e-22",
  "   0.000931693    1.402e-22",
  "   0.000934636   1.5272e-22",
  "   0.000937579   1.6628e-22",
  "   0.000940521   1.8099e-22",
  "   0.000943464   1.9691e-22",
  "   0.000946407   2.1415e-22",
  "    0.00094935    2.328e-22",
  "   0.000952292   2.5299e-22"]
def ttText4 : List String := [
  "   0.000955235   2.7481e-22",
  "   0.000958178    2.984e-22",
  "   0.000961121   3.2389e-22",
  "   0.000964063   3.5143e-22",
  "   0.000967006   3.8117e-22",
  "   0.000969949   4.1326e-22",
  "   0.000972892   4.4789e-22",
  "   0.000975834   4.8525e-22",
  "   0.000978777   5.2552e-22",
  "    0.00098172   5.6894e-22",
  "   0.000984663   6.1572e-22",
  "   0.000987605    6.661e-22",
  "   0.000990548   7.2036e-22",
  "   0.000993491   7.7876e-22",
  "   0.000996434   8.4159e-22",
  "   0.000999376   9.0918e-22",
  "    0.00100232   9.8187e-22",
  "    0.00100526     1.06e-21",
  "     0.0010082   1.1439e-21",
  "    0.00101115   1.2341e-21",
  "    0.00101483   1.3563e-21",
  "    0.00101777   1.4621e-21",
  "    0.00102071   1.5757e-21",
  "    0.00102365   1.6976e-21",
  "     0.0010266   1.8283e-21",
  "    0.00102954   1.9683e-21",
  "    0.00103248   2.1185e-21",
  "    0.00103616   2.3214e-21",
  "    0.00103984   2.5424e-21",
  "    0.00104352   2.7831e-21",
  "     0.0010472   3.0452e-21",
  "    0.00105087   3.3303e-21",
  "    0.00105382   3.5763e-21",
  "     0.0010575   3.9077e-21",
  "    0.00106117   4.2681e-21",
  "    0.00106412   4.5786e-21",
  "     0.0010678   4.9965e-21",
  "    0.00107147     5.45e-21",
  "    0.00107442   5.8405e-21",
  "     0.0010781   6.3656e-21",
  "    0.00108177   6.9348e-21",
  "    0.00108545   7.5514e-21",
  "    0.00108913   8.2195e-21",
  "    0.00109281   8.9427e-21",
  "    0.00109649   9.7254e-21",
  "    0.00110016   1.0572e-20",
  "    0.00110384   1.1488e-20",
  "    0.00110752   1.2477e-20",
  "     0.0011112   1.3546e-20",
  "    0.00111488   1.4701e-20",
  "    0.00111856   1.5947e-20",
  "    0.00112297   1.7574e-20",
  "    0.00112665   1.9047e-20",
  "    0.00113033   2.0636e-20",
  "    0.00113401   2.2348e-20",
  "    0.00113842   2.4579e-20",
  "     0.0011421   2.6595e-20",
  "    0.00114578   2.8766e-20",
  "    0.00114946   3.1102e-20",
  "    0.00115387    3.414e-20"]
def ttText5 : List String := [
  "    0.00115755   3.6882e-20",
  "    0.00116123   3.9829e-20",
  "    0.00116564   4.3657e-20",
  "    0.00116932   4.7108e-20",
  "      0.001173   5.0813e-20",
  "    0.00117741   5.5618e-20",
  "    0.00118183   6.0848e-20",
  "    0.00118624   6.6535e-20",
  "    0.00119066   7.2718e-20",
  "    0.00119507   7.9434e-20",
  "    0.00119875    8.547e-20",
  "    0.00120316    9.328e-20",
  "    0.00120758   1.0175e-19",
  "    0.00121199   1.1095e-19",
  "     0.0012164   1.2091e-19",
  "    0.00122082   1.3171e-19",
  "    0.00122523    1.434e-19",
  "    0.00122965   1.5606e-19",
  "    0.00123406   1.6975e-19",
  "    0.00123847   1.8457e-19",
  "    0.00124289   2.0058e-19",
  "     0.0012473   2.1789e-19",
  "    0.00125172   2.3659e-19",
  "    0.00125687    2.603e-19",
  "    0.00126202   2.8621e-19",
  "    0.00126717   3.1451e-19",
  "    0.00127232   3.4542e-19",
  "    0.00127673   3.7414e-19",
  "    0.00128114   4.0509e-19",
  "    0.00128556   4.3841e-19",
  "    0.00129071   4.8051e-19",
  "    0.00129586   5.2637e-19",
  "    0.00130101   5.7627e-19",
  "    0.00130616   6.3058e-19",
  "    0.00131131   6.8963e-19",
  "    0.00131646   7.5381e-19",
  "    0.00132161   8.2352e-19",
  "    0.00132676    8.992e-19",
  "    0.00133191   9.8134e-19",
  "    0.00133706   1.0704e-18",
  "    0.00134221    1.167e-18",
  "    0.00134736   1.2717e-18",
  "     0.0013525    1.385e-18",
  "    0.00135765   1.5077e-18",
  "     0.0013628   1.6405e-18",
  "    0.00136795   1.7842e-18",
  "     0.0013731   1.9394e-18",
  "    0.00137825   2.1072e-18",
  "     0.0013834   2.2884e-18",
  "    0.00138855    2.484e-18",
  "     0.0013937   2.6951e-18",
  "    0.00139885   2.9228e-18",
  "      0.001404   3.1683e-18",
  "    0.00140915   3.4329e-18",
  "     0.0014143    3.718e-18",
  "    0.00141945   4.0249e-18",
  "     0.0014246   4.3553e-18",
  "    0.00143049   4.7636e-18",
  "    0.00143637   5.2074e-18",
  "    0.00144226   5.6892e-18"]
def ttText6 : List String := [
  "    0.00144815   6.2123e-18",
  "    0.00145403   6.7798e-18",
  "    0.00145992   7.3952e-18",
  "     0.0014658   8.0621e-18",
  "    0.00147169   8.7846e-18",
  "    0.00147757   9.5668e-18",
  "    0.00148346   1.0413e-17",
  "    0.00148934   1.1329e-17",
  "    0.00149523   1.2319e-17",
  "    0.00150111   1.3388e-17",
  "      0.001507   1.4544e-17",
  "    0.00151289   1.5791e-17",
  "    0.00151951   1.7312e-17",
  "    0.00152613   1.8969e-17",
  "    0.00153275   2.0771e-17",
  "    0.00153937   2.2731e-17",
  "    0.00154599   2.4862e-17",
  "    0.00155261   2.7176e-17",
  "    0.00155923   2.9689e-17",
  "    0.00156585   3.2415e-17",
  "    0.00157248   3.5371e-17",
  "     0.0015791   3.8577e-17",
  "    0.00158572   4.2049e-17",
  "    0.00159273   4.6039e-17",
  "    0.00159975   5.0386e-17",
  "    0.00160717   5.5383e-17",
  "    0.00161419   6.0538e-17",
  "    0.00162121   6.6132e-17",
  "    0.00162824   7.2201e-17",
  "    0.00163565   7.9165e-17",
  "    0.00164306   8.6743e-17",
  "    0.00165009   9.4538e-17",
  "     0.0016575   1.0346e-16",
  "    0.00166491   1.1316e-16",
  "    0.00167233    1.237e-16",
  "    0.00167974   1.3513e-16",
  "    0.00168754   1.4821e-16",
  "    0.00169496   1.6171e-16",
  "    0.00170276   1.7714e-16",
  "    0.00171096    1.948e-16",
  "    0.00171876   2.1312e-16",
  "    0.00172656   2.3301e-16",
  "    0.00173437    2.546e-16",
  "    0.00174256   2.7925e-16",
  "    0.00175076   3.0608e-16",
  "    0.00175895   3.3527e-16",
  "    0.00176714   3.6701e-16",
  "    0.00177534   4.0149e-16",
  "    0.00178353   4.3894e-16",
  "    0.00179211    4.816e-16",
  "    0.00180031   5.2586e-16",
  "    0.00180889   5.7621e-16",
  "    0.00181748   6.3096e-16",
  "    0.00182606   6.9048e-16",
  "    0.00183504   7.5818e-16",
  "    0.00184401   8.3194e-16",
  "    0.00185298   9.1225e-16",
  "    0.00186157   9.9568e-16",
  "    0.00187054   1.0904e-15",
  "    0.00187952   1.1932e-15"]
def ttText7 : List String := [
  "    0.00188888   1.3101e-15",
  "    0.00189825   1.4373e-15",
  "    0.00190761   1.5758e-15",
  "    0.00191737    1.733e-15",
  "    0.00192673   1.8973e-15",
  "     0.0019361   2.0759e-15",
  "    0.00194585   2.2781e-15",
  "     0.0019556   2.4983e-15",
  "    0.00196497   2.7279e-15",
  "    0.00197472   2.9875e-15",
  "    0.00198423   3.2622e-15",
  "    0.00199278   3.5285e-15",
  "    0.00200303   3.8742e-15",
  "    0.00201328   4.2507e-15",
  "    0.00202353   4.6605e-15",
  "    0.00203378   5.1061e-15",
  "    0.00204403   5.5905e-15",
  "    0.00205428   6.1165e-15",
  "    0.00206453   6.6874e-15",
  "    0.00207478   7.3068e-15",
  "    0.00208503   7.9781e-15",
  "    0.00209528   8.7055e-15",
  "    0.00210553   9.4929e-15",
  "    0.00211578   1.0345e-14",
  "    0.00212603   1.1266e-14",
  "    0.00213628   1.2262e-14",
  "    0.00214653   1.3338e-14",
  "    0.00215678   1.4499e-14",
  "    0.00216703   1.5751e-14",
  "    0.00217899   1.7337e-14",
  "    0.00218923    1.881e-14",
  "    0.00219949   2.0397e-14",
  "    0.00221144   2.2402e-14",
  "    0.00222169   2.4262e-14",
  "    0.00223365   2.6609e-14",
  "    0.00224561   2.9161e-14",
  "    0.00225757   3.1934e-14",
  "    0.00226953   3.4945e-14",
  "    0.00228149   3.8213e-14",
  "    0.00229344   4.1756e-14",
  "     0.0023054   4.5595e-14",
  "    0.00231736   4.9753e-14",
  "    0.00232932   5.4254e-14",
  "    0.00234128   5.9121e-14",
  "    0.00235323   6.4381e-14",
  "    0.00236519   7.0063e-14",
  "    0.00237715   7.6197e-14",
  "    0.00239082   8.3802e-14",
  "    0.00240449   9.2089e-14",
  "    0.00241815   1.0111e-13",
  "    0.00243011   1.0966e-13",
  "    0.00244378   1.2023e-13",
  "    0.00245744   1.3171e-13",
  "    0.00247111   1.4417e-13",
  "    0.00248478   1.5769e-13",
  "    0.00249844   1.7236e-13",
  "    0.00251211   1.8824e-13",
  "    0.00252578   2.0545e-13",
  "    0.00253944   2.2406e-13",
  "    0.00255311   2.4418e-13"]
def ttText8 : List String := [
  "    0.00256849   2.6876e-13",
  "    0.00258215   2.9247e-13",
  "    0.00259753   3.2138e-13",
  "     0.0026129   3.5286e-13",
  "    0.00262828   3.8709e-13",
  "    0.00264365   4.2429e-13",
  "    0.00265903   4.6468e-13",
  "     0.0026744   5.0852e-13",
  "    0.00268978   5.5605e-13",
  "    0.00270515   6.0755e-13",
  "    0.00272053   6.6331e-13",
  "     0.0027359   7.2364e-13",
  "    0.00275128   7.8886e-13",
  "    0.00276665   8.5934e-13",
  "    0.00278203   9.3543e-13",
  "    0.00279911    1.027e-12",
  "    0.00281619   1.1266e-12",
  "    0.00283328   1.2348e-12",
  "    0.00285036   1.3523e-12",
  "    0.00286744   1.4797e-12",
  "    0.00288453   1.6178e-12",
  "    0.00290161   1.7673e-12",
  "    0.00291869   1.9291e-12",
  "    0.00293749   2.1223e-12",
  "    0.00295628   2.3327e-12",
  "    0.00297507   2.5617e-12",
  "    0.00299386   2.8105e-12",
  "    0.00301265   3.0808e-12",
  "    0.00303144   3.3741e-12",
  "    0.00305024   3.6922e-12",
  "    0.00306903   4.0369e-12",
  "    0.00308782     4.41e-12",
  "    0.00310661   4.8137e-12",
  "    0.00312711   5.2914e-12",
  "    0.00314761    5.811e-12",
  "    0.00316811   6.3757e-12",
  "    0.00318861   6.9889e-12",
  "    0.00320911   7.6542e-12",
  "    0.00322961   8.3753e-12",
  "    0.00325011   9.1564e-12",
  "    0.00327061   1.0002e-11",
  "    0.00329282   1.0995e-11",
  "    0.00331503   1.2076e-11",
  "    0.00333724    1.325e-11",
  "    0.00335944   1.4524e-11",
  "    0.00338165   1.5906e-11",
  "    0.00340386   1.7404e-11",
  "    0.00342607   1.9026e-11",
  "    0.00344999   2.0921e-11",
  "     0.0034739   2.2982e-11",
  "    0.00349782    2.522e-11",
  "    0.00352173    2.765e-11",
  "    0.00354565   3.0286e-11",
  "    0.00356957   3.3141e-11",
  "    0.00359348   3.6232e-11",
  "    0.00361911   3.9824e-11",
  "    0.00364474   4.3727e-11",
  "    0.00367036   4.7965e-11",
  "    0.00369599   5.2562e-11",
  "    0.00372161   5.7543e-11"]
def ttText9 : List String := [
  "    0.00374723   6.2937e-11",
  "    0.00377457   6.9176e-11",
  "     0.0038019   7.5955e-11",
  "    0.00382923   8.3312e-11",
  "    0.00385657   9.1289e-11",
  "     0.0038839   9.9932e-11",
  "    0.00391123   1.0929e-10",
  "    0.00394028   1.2006e-10",
  "    0.00396932   1.3175e-10",
  "    0.00399836   1.4444e-10",
  "     0.0040274   1.5818e-10",
  "    0.00405644   1.7306e-10",
  "    0.00408719   1.9014e-10",
  "    0.00411794   2.0867e-10",
  "    0.00414869   2.2877e-10",
  "    0.00417944   2.5054e-10",
  "     0.0042119   2.7547e-10",
  "    0.00424436   3.0254e-10",
  "    0.00427682    3.319e-10",
  "    0.00430928   3.6373e-10",
  "    0.00434344   4.0007e-10",
  "    0.00437761   4.3953e-10",
  "    0.00441178   4.8235e-10",
  "    0.00444594   5.2875e-10",
  "    0.00448011   5.7899e-10",
  "    0.00451599   6.3617e-10",
  "    0.00455186   6.9818e-10",
  "    0.00458773   7.6538e-10",
  "    0.00462532   8.4174e-10",
  "     0.0046629   9.2461e-10",
  "    0.00470048    1.0145e-9",
  "    0.00473978    1.1164e-9",
  "    0.00477907    1.2271e-9",
  "    0.00481836    1.3471e-9",
  "    0.00485936     1.483e-9",
  "    0.00490036    1.6307e-9",
  "    0.00494136    1.7908e-9",
  "    0.00498407    1.9719e-9",
  "    0.00502678    2.1685e-9",
  "    0.00506949    2.3818e-9",
  "    0.00511219    2.6129e-9",
  "    0.00515661    2.8734e-9",
  "    0.00520103    3.1559e-9",
  "    0.00524715    3.4742e-9",
  "    0.00529328    3.8196e-9",
  "     0.0053394    4.1941e-9",
  "    0.00538724    4.6152e-9",
  "    0.00543557    5.0769e-9",
  "     0.0054846     5.585e-9",
  "    0.00553364     6.136e-9",
  "    0.00558425    6.7527e-9",
  "    0.00563486    7.4215e-9",
  "    0.00568705    8.1695e-9",
  "    0.00573925    8.9807e-9",
  "    0.00579303     9.887e-9",
  "     0.0058468     1.087e-8",
  "    0.00590216    1.1967e-8",
  "    0.00595752    1.3157e-8",
  "    0.00601446    1.4484e-8",
  "     0.0060714    1.5922e-8"]
def ttText10 : List String := [
  "    0.00612992    1.7524e-8",
  "    0.00619002    1.9309e-8",
  "    0.00625012    2.1245e-8",
  "    0.00631181      2.34e-8",
  "    0.00637349    2.5735e-8",
  "    0.00643676    2.8331e-8",
  "    0.00650161    3.1217e-8",
  "    0.00656804    3.4425e-8",
  "    0.00663446    3.7905e-8",
  "    0.00670248    4.1768e-8",
  "    0.00677207    4.6057e-8",
  "    0.00684166    5.0707e-8",
  "    0.00691284    5.5862e-8",
  "    0.00698085    6.1188e-8",
  "    0.00705313    6.7306e-8",
  "    0.00712542    7.3924e-8",
  "    0.00719771    8.1075e-8",
  "       0.00727    8.8789e-8",
  "    0.00734885    9.7888e-8",
  "    0.00742771    1.0775e-7",
  "    0.00750657    1.1841e-7",
  "    0.00758543    1.2993e-7",
  "    0.00766429    1.4236e-7",
  "    0.00774972    1.5691e-7",
  "    0.00783515    1.7267e-7",
  "    0.00792058     1.897e-7",
  "    0.00800601    2.0808e-7",
  "    0.00809801    2.2948e-7",
  "    0.00819002    2.5265e-7",
  "    0.00828202    2.7769e-7",
  "    0.00837402    3.0472e-7",
  "    0.00847259    3.3601e-7",
  "    0.00857117    3.6987e-7",
  "    0.00866974    4.0645e-7",
  "    0.00877489    4.4864e-7",
  "    0.00888003     4.943e-7",
  "    0.00898518    5.4364e-7",
  "    0.00909689    6.0034e-7",
  "    0.00920861     6.617e-7",
  "    0.00932033      7.28e-7",
  "    0.00943861     8.039e-7",
  "     0.0095569    8.8601e-7",
  "    0.00967519    9.7468e-7",
  "    0.00980005    1.0758e-6",
  "    0.00992491    1.1851e-6",
  "     0.0100498    1.3031e-6",
  "     0.0101812    1.4371e-6",
  "     0.0103126    1.5818e-6",
  "     0.0104506    1.7458e-6",
  "     0.0105886     1.923e-6",
  "     0.0107266     2.114e-6",
  "     0.0108712    2.3298e-6",
  "     0.0110224    2.5734e-6",
  "     0.0111801    2.8484e-6",
  "     0.0113378    3.1457e-6",
  "     0.0114955    3.4666e-6",
  "     0.0116598    3.8273e-6",
  "     0.0118307    4.2326e-6",
  "     0.0120015    4.6701e-6",
  "      0.012179    5.1606e-6"]
def ttText11 : List String := [
  "      0.012363    5.7099e-6",
  "      0.012547     6.303e-6",
  "     0.0127375    6.9655e-6",
  "     0.0129281    7.6799e-6",
  "     0.0131253     8.476e-6",
  "     0.0133356    9.3924e-6",
  "     0.0135458    1.0382e-5",
  "     0.0137601    1.1468e-5",
  "     0.0139872     1.271e-5",
  "     0.0142208     1.409e-5",
  "     0.0144609    1.5622e-5",
  "     0.0147075     1.732e-5",
  "     0.0149605      1.92e-5",
  "     0.0152201    2.1281e-5",
  "     0.0154861    2.3581e-5",
  "     0.0157586    2.6119e-5",
  "     0.0160442    2.8987e-5",
  "     0.0163427    3.2221e-5",
  "     0.0166476    3.5786e-5",
  "     0.0169591    3.9711e-5",
  "     0.0172835    4.4117e-5",
  "     0.0176145    4.8959e-5",
  "     0.0179584    5.4377e-5",
  "     0.0183153    6.0432e-5",
  "     0.0186852    6.7189e-5",
  "      0.019068     7.472e-5",
  "     0.0194638    8.3102e-5",
  "     0.0198726    9.2415e-5",
  "     0.0202985   0.00010285",
  "      0.020737    0.0001144",
  "     0.0211988   0.00012749",
  "     0.0216782   0.00014209",
  "     0.0221809   0.00015857",
  "     0.0227012   0.00017689",
  "     0.0232448   0.00019747",
  "      0.023806   0.00022028",
  "     0.0243964   0.00024604",
  "     0.0250161   0.00027507",
  "      0.025665   0.00030769",
  "     0.0263478   0.00034453",
  "      0.027051    0.0003852",
  "     0.0278026   0.00043179",
  "     0.0285786    0.0004833",
  "      0.029403   0.00054187",
  "     0.0302759   0.00060824",
  "     0.0311973   0.00068318",
  "     0.0321671    0.0007675",
  "     0.0332098   0.00086436",
  "     0.0343252   0.00097506",
  "     0.0355133     0.001101",
  "     0.0367741    0.0012435",
  "      0.038132    0.0014072",
  "     0.0395868    0.0015939",
  "     0.0411629     0.001809",
  "     0.0428845    0.0020589",
  "     0.0447758    0.0023504",
  "      0.046861    0.0026915",
  "     0.0491645    0.0030908",
  "      0.051748    0.0035646",
  "     0.0546725     0.004131"]
def ttText12 : List String := [
  "     0.0580509    0.0048205",
  "     0.0620343    0.0056752",
  "     0.0669506    0.0067804",
  "       0.07343    0.0083002",
  "     0.0841772     0.010912",
  "      0.103509     0.015643",
  "      0.116394     0.018682",
  "      0.128848     0.021471",
  "      0.141548     0.024141",
  "      0.154865     0.026745",
  "      0.169124     0.029313",
  "      0.184673      0.03187",
  "      0.201856     0.034428",
  "      0.221368      0.03704",
  "      0.243778     0.039723",
  "      0.269709     0.042487",
  "      0.300764     0.045426",
  "      0.338861     0.048631",
  "      0.387522     0.052287",
  "       0.44835     0.056395",
  "       0.51558     0.060476",
  "      0.583167     0.064089",
  "      0.665718     0.067931",
  "      0.770783     0.072203",
  "      0.915248     0.077391",
  "       1.14863     0.084958",
  "       1.46965       0.0946",
  "       1.74452      0.10223",
  "       1.92953      0.10665",
  "       2.11406      0.11019",
  "       2.31705      0.11317",
  "       2.54218      0.11556",
  "       2.79315      0.11726",
  "       3.07364      0.11818",
  "       3.39473      0.11825",
  "       3.76749      0.11731",
  "       4.21406      0.11516",
  "       4.80827      0.11122",
  "       6.89883     0.095378",
  "       8.16418     0.086486",
  "       9.28894     0.079234",
  "       10.3159     0.073215",
  "       11.2756     0.068153",
  "       12.1829     0.063893",
  "       13.1418     0.059909",
  "       14.1582     0.056177",
  "       15.2321     0.052694",
  "       16.3636     0.049457",
  "        17.543     0.046483",
  "         18.78      0.04374",
  "            20     0.041222"]
def ttTextE : List String := [
  "//",
  "#-------------------------------------------------------------------------------"]
/-- The lines of `data/cross_sections/T_T_He_2n.txt`. -/
def ttText : List String :=
  ttTextH ++
  ttText0 ++
  ttText1 ++
  ttText2 ++
  ttText3 ++
  ttText4 ++
  ttText5 ++
  ttText6 ++
  ttText7 ++
  ttText8 ++
  ttText9 ++
  ttText10 ++
  ttText11 ++
  ttText12 ++
  ttTextE

def dhe3TextH : List String := [
  "#ZVView-data-copy:  26-Sep-2025 08:15:08",
  "#=======================================",
  "#",
  "#name:   ENDF/B-VIII.1: HE-3(D,P`)HE-4-L0",
  "#X.axis: Incident Energy",
  "#Y.axis: Cross Section",
  "#wdata:  2",
  "#ldata:  337",
  "#data...",
  "#            X            Y",
  "#          MeV        barns"]
def dhe3Text0 : List String := [
  "           0.0          0.0",
  "          0.01   6.8552e-10",
  "     0.0100597   7.4092e-10",
  "     0.0101161   7.9673e-10",
  "     0.0101942   8.8021e-10",
  "     0.0102664   9.6413e-10",
  "     0.0103316   1.04598e-9",
  "     0.0103919   1.12691e-9",
  "      0.010466   1.23404e-9",
  "     0.0105313   1.33571e-9",
  "      0.010614   1.47502e-9",
  "     0.0106838   1.60222e-9",
  "      0.010762   1.75621e-9",
  "     0.0108432    1.9298e-9",
  "     0.0108989   2.05745e-9",
  "     0.0109662   2.22129e-9",
  "       0.01103   2.38701e-9",
  "     0.0111165   2.62937e-9",
  "     0.0111948   2.86693e-9",
  "     0.0112672   3.10284e-9",
  "     0.0113535   3.40634e-9",
  "     0.0114323   3.70606e-9",
  "     0.0115018   3.98884e-9",
  "     0.0115916   4.38204e-9",
  "     0.0116419   4.61675e-9",
  "     0.0117304   5.05666e-9",
  "     0.0118224    5.5521e-9",
  "     0.0118855   5.91611e-9",
  "     0.0119617   6.38302e-9",
  "     0.0120602    7.0337e-9",
  "     0.0121435   7.62895e-9",
  "     0.0122205   8.21715e-9",
  "     0.0123154    8.9953e-9",
  "     0.0123989   9.73336e-9",
  "     0.0125048   1.07439e-8",
  "     0.0125942   1.16658e-8",
  "     0.0126944    1.2781e-8",
  "     0.0127987   1.40371e-8",
  "     0.0128702   1.49601e-8",
  "     0.0129566    1.6144e-8",
  "     0.0130604   1.76725e-8",
  "     0.0131707   1.94339e-8",
  "     0.0132716   2.11754e-8",
  "     0.0133605     2.282e-8",
  "     0.0134756   2.51092e-8",
  "       0.01354   2.64769e-8",
  "     0.0136536   2.90423e-8",
  "     0.0137717   3.19345e-8",
  "     0.0138528   3.40611e-8",
  "     0.0139508   3.67909e-8",
  "     0.0140585   4.00101e-8",
  "     0.0141727   4.36801e-8",
  "     0.0142805   4.74091e-8",
  "     0.0143823    5.1178e-8",
  "     0.0144785   5.49681e-8",
  "     0.0146133   6.06859e-8",
  "     0.0147354   6.62973e-8",
  "     0.0148483    7.1876e-8",
  "     0.0149833   7.90606e-8",
  "     0.0151067   8.61633e-8"]
def dhe3Text1 : List String := [
  "     0.0152156   9.28703e-8",
  "     0.0153565   1.02204e-7",
  "     0.0154355   1.07779e-7",
  "     0.0155747   1.18235e-7",
  "     0.0157196    1.3002e-7",
  "     0.0158192   1.38683e-7",
  "     0.0159395     1.498e-7",
  "      0.016059   1.61584e-7",
  "     0.0161739   1.73654e-7",
  "     0.0163352   1.91869e-7",
  "     0.0164814   2.09752e-7",
  "     0.0166166   2.27536e-7",
  "     0.0167783   2.50446e-7",
  "     0.0169264     2.731e-7",
  "      0.017057   2.94496e-7",
  "     0.0172261   3.24277e-7",
  "      0.017321   3.42068e-7",
  "     0.0174883   3.75438e-7",
  "     0.0176625   4.13051e-7",
  "     0.0177823   4.40702e-7",
  "     0.0179271   4.76186e-7",
  "     0.0180594   5.10653e-7",
  "     0.0182311   5.58545e-7",
  "     0.0183868   6.05127e-7",
  "     0.0185307   6.51064e-7",
  "     0.0187083   7.11697e-7",
  "     0.0188651    7.6907e-7",
  "     0.0190682    8.4908e-7",
  "     0.0191823   8.96958e-7",
  "     0.0193835   9.86901e-7",
  "     0.0195933   1.08848e-6",
  "     0.0197376   1.16328e-6",
  "     0.0199121   1.25941e-6",
  "     0.0201195   1.38211e-6",
  "     0.0203384   1.52221e-6",
  "      0.020539   1.66075e-6",
  "     0.0207162   1.79157e-6",
  "     0.0209458   1.97363e-6",
  "     0.0210748   2.08236e-6",
  "     0.0213024   2.28626e-6",
  "     0.0215396   2.51599e-6",
  "     0.0217029   2.68481e-6",
  "     0.0219005   2.90138e-6",
  "       0.02212   3.15854e-6",
  "     0.0223467   3.44358e-6",
  "     0.0225469   3.71253e-6",
  "     0.0228066   4.08643e-6",
  "     0.0230809   4.51408e-6",
  "     0.0233073   4.89391e-6",
  "     0.0235524   5.33379e-6",
  "     0.0237751   5.76091e-6",
  "         0.024   6.21971e-6",
  "     0.0242413     6.745e-6",
  "     0.0245483   7.46433e-6",
  "     0.0248083   8.12056e-6",
  "      0.025101   8.91426e-6",
  "     0.0254065   9.80778e-6",
  "     0.0257439   1.08769e-5",
  "         0.026   1.17487e-5",
  "     0.0263485   1.30254e-5"]
def dhe3Text2 : List String := [
  "     0.0266438   1.41916e-5",
  "     0.0269766   1.56037e-5",
  "     0.0273241   1.71953e-5",
  "     0.0275636   1.83651e-5",
  "     0.0278538    1.9866e-5",
  "      0.028121   2.13332e-5",
  "     0.0284564   2.32958e-5",
  "     0.0288347   2.56768e-5",
  "     0.0292301   2.83658e-5",
  "     0.0295028   3.03455e-5",
  "     0.0298333   3.28889e-5",
  "     0.0301449   3.54381e-5",
  "     0.0305653    3.9124e-5",
  "     0.0309478   4.27312e-5",
  "      0.031303   4.63073e-5",
  "     0.0317428   5.10534e-5",
  "     0.0321328   5.55682e-5",
  "     0.0326301   6.17664e-5",
  "     0.0330522   6.74344e-5",
  "     0.0335288   7.43042e-5",
  "     0.0340274   8.20542e-5",
  "     0.0343716   8.77546e-5",
  "     0.0347893   9.50715e-5",
  "     0.0352933  0.000104529",
  "     0.0358499  0.000115802",
  "     0.0363442  0.000126563",
  "     0.0367822  0.000136718",
  "     0.0373407  0.000150542",
  "     0.0378147  0.000163075",
  "     0.0383495  0.000178143",
  "      0.038931   0.00019568",
  "     0.0394619  0.000212786",
  "          0.04  0.000231235",
  "     0.0405933  0.000253005",
  "     0.0411196  0.000273556",
  "     0.0417913  0.000301542",
  "     0.0423619  0.000326924",
  "     0.0430066  0.000357443",
  "     0.0437082  0.000392969",
  "     0.0443494  0.000427624",
  "         0.045  0.000465002",
  "     0.0458601  0.000518192",
  "     0.0465925  0.000566836",
  "      0.047422  0.000625788",
  "     0.0482928  0.000692267",
  "     0.0492611  0.000771918",
  "          0.05  0.000836917",
  "     0.0508637  0.000918056",
  "      0.051598  0.000991269",
  "     0.0524282   0.00107887",
  "     0.0533326   0.00118028",
  "     0.0544385   0.00131306",
  "     0.0552999   0.00142359",
  "     0.0561331   0.00153681",
  "     0.0570758   0.00167218",
  "     0.0581035   0.00182878",
  "      0.059361   0.00203363",
  "          0.06    0.0021434",
  "     0.0612127   0.00236382",
  "     0.0621383   0.00254193"]
def dhe3Text3 : List String := [
  "     0.0635531   0.00283109",
  "         0.065   0.00314855",
  "     0.0662155   0.00343438",
  "      0.067142   0.00366331",
  "     0.0685561   0.00403154",
  "          0.07   0.00443142",
  "       0.07168   0.00493104",
  "     0.0735587   0.00553082",
  "         0.075    0.0060209",
  "     0.0762199   0.00645943",
  "     0.0780871    0.0071685",
  "          0.08   0.00794313",
  "     0.0821503   0.00888011",
  "     0.0840393   0.00975658",
  "     0.0862233    0.0108293",
  "     0.0880914    0.0118092",
  "     0.0906103    0.0132248",
  "     0.0930933     0.014709",
  "     0.0962261    0.0167344",
  "     0.0987258    0.0184659",
  "      0.102411    0.0211927",
  "      0.104258    0.0226472",
  "      0.107091    0.0250182",
  "          0.11    0.0276374",
  "       0.11334    0.0307537",
  "      0.115675    0.0330777",
  "      0.118541    0.0360994",
  "      0.122425    0.0404113",
  "      0.126156    0.0448265",
  "          0.13    0.0497241",
  "      0.132431    0.0529142",
  "      0.136163    0.0580872",
  "      0.141213    0.0655916",
  "       0.14429    0.0703882",
  "      0.148072    0.0766092",
  "       0.15244    0.0841612",
  "      0.157439    0.0933241",
  "      0.162443     0.103064",
  "      0.167443     0.113358",
  "      0.172447     0.124243",
  "      0.177446     0.135695",
  "      0.184932     0.153933",
  "      0.192452     0.173609",
  "           0.2     0.194732",
  "      0.207454     0.216814",
  "      0.214942      0.24031",
  "      0.224944     0.273662",
  "      0.234947     0.309105",
  "      0.244949     0.346442",
  "      0.254951     0.385404",
  "          0.27     0.446531",
  "           0.3     0.570691",
  "          0.31     0.610846",
  "          0.32     0.649397",
  "          0.33     0.685755",
  "          0.34     0.719375",
  "          0.35     0.749776",
  "          0.36     0.776567",
  "          0.37     0.799458",
  "          0.38     0.818273"]
def dhe3Text4 : List String := [
  "          0.39     0.832949",
  "         0.404     0.846646",
  "         0.417     0.852563",
  "         0.423     0.853237",
  "      0.434971      0.85066",
  "      0.444972      0.84559",
  "          0.46     0.833502",
  "      0.474974      0.81623",
  "      0.494975     0.788282",
  "           0.5     0.780745",
  "      0.524404      0.73747",
  "          0.55     0.696594",
  "      0.574456     0.653107",
  "        0.6245     0.573476",
  "          0.65     0.537083",
  "      0.674537     0.504015",
  "           0.7     0.472984",
  "      0.724569     0.445371",
  "          0.75     0.419369",
  "      0.774597     0.396415",
  "           0.8     0.374718",
  "      0.824621     0.355594",
  "          0.85     0.337445",
  "      0.887231     0.313699",
  "      0.912248     0.299325",
  "          0.95     0.279721",
  "      0.987259     0.262664",
  "        1.0247     0.247375",
  "       1.06228     0.233632",
  "           1.1     0.221247",
  "          1.15     0.206762",
  "           1.2     0.194096",
  "          1.25     0.182956",
  "           1.3     0.173108",
  "          1.35      0.16436",
  "           1.4     0.156554",
  "          1.45     0.149559",
  "           1.5     0.143268",
  "          1.55      0.13759",
  "       1.62481     0.130091",
  "           1.7     0.123521",
  "       1.77482      0.11784",
  "          1.85     0.112806",
  "       1.92484     0.108406",
  "       2.02485     0.103279",
  "       2.12485    0.0988822",
  "       2.22486     0.095087",
  "          2.35    0.0910282",
  "       2.47487     0.087621",
  "           2.6    0.0847154",
  "       2.74955    0.0818233",
  "           2.9    0.0793887",
  "             3    0.0780161",
  "           3.2    0.0757448",
  "          3.45     0.073644",
  "           3.7    0.0722098",
  "       4.07308    0.0709614",
  "       4.82338    0.0689951",
  "           5.7     0.067513",
  "           6.2    0.0662375"]
def dhe3Text5 : List String := [
  "           7.2    0.0629087",
  "           9.7    0.0540566",
  "         10.45    0.0514235",
  "       10.7499    0.0506139",
  "       10.9499    0.0503281",
  "            11    0.0502959",
  "       11.1499    0.0504279",
  "       11.2499    0.0506812",
  "       11.3499    0.0510915",
  "          11.5    0.0519759",
  "          11.8    0.0542299",
  "          11.9    0.0548404",
  "            12    0.0552738",
  "          12.1    0.0555024",
  "          12.2      0.05552",
  "          12.3    0.0553343",
  "       12.4499    0.0547018",
  "       12.6499    0.0534619",
  "            13    0.0510728",
  "         13.25    0.0496733",
  "          13.5    0.0486087",
  "         13.75    0.0478526",
  "       14.1244    0.0471743",
  "          14.5    0.0465805",
  "         14.75    0.0459198",
  "         15.25    0.0442854",
  "          15.5    0.0437998",
  "         15.75    0.0436686",
  "            16    0.0438583",
  "         16.25    0.0443097",
  "          16.5    0.0449655",
  "       16.8745    0.0462329",
  "       17.6246    0.0492242",
  "         18.25    0.0517206",
  "         18.75    0.0534707",
  "         19.25    0.0549175",
  "         19.75    0.0560444",
  "            20    0.0564932"]
def dhe3TextE : List String := [
  "//",
  "#-------------------------------------------------------------------------------"]
/-- The lines of `data/cross_sections/D_He3_He_p.txt`. -/
def dhe3Text : List String :=
  dhe3TextH ++
  dhe3Text0 ++
  dhe3Text1 ++
  dhe3Text2 ++
  dhe3Text3 ++
  dhe3Text4 ++
  dhe3Text5 ++
  dhe3TextE

end TNS.Data
