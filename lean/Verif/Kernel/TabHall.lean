import Mathlib.Data.Nat.Notation
/- generated by tools/gentables.py -/
namespace LCP.Kernel

/-- hall_efficiencies (src/detail/kernel_definitions/hall_efficiencies.hpp:19-2049), one number per row
of the lower triangular matrix, seven digits per entry, in units of 1e-6; the first digit of each
number is a 1 put in front. -/
def rowsHall : List ℕ := [
  1_0000000,
  1_0000000_0000000,
  1_0000000_0000000_0000000,
  1_0000000_0000000_0000000_0000000,
  1_0000000_0000000_0000000_0000000_0000000,
  1_0000000_0000000_0000000_0000000_0000000_0000000,
  1_0000000_0000000_0000000_0000000_0000000_0000000_0000000,
  1_0000000_0000000_0000000_0000000_0000000_0000000_0000000_0000000,
  1_0000000_0000000_0000000_0000000_0000000_0000000_0000000_0000000_0000000,
  1_0000000_0000000_0000000_0000000_0000000_0000000_0000000_0000000_0000000_0000000,
  1_0000000_0000100_0014000_0019000_0027000_0033000_0037000_0038000_0036000_0032000_0027000,
  1_0000000_0000100_0009251_0018682_0025573_0033718_0039173_0042009_0040818_0037445_0032182_0027000,
  1_0000000_0000100_0005520_0018000_0024533_0033600_0040800_0045267_0046133_0043000_0038467_0032333_0027000,
  1_0000000_0000100_0002572_0017000_0023223_0032592_0041238_0047392_0050531_0049585_0044577_0039162_0032462_0027000,
  1_0000000_0000100_0001780_0016000_0022143_0031343_0040771_0048600_0053629_0054829_0052000_0045714_0039486_0032571_0027000,
  1_0000000_0000100_0001733_0015000_0021167_0029833_0039500_0048833_0055500_0059500_0058333_0053667_0046500_0039667_0032667_0027000,
  1_0000000_0000100_0001570_0012160_0020000_0027850_0038300_0048300_0056400_0062050_0063600_0061400_0055000_0047150_0039800_0032750_0027000,
  1_0000000_0000100_0001311_0009814_0019000_0025971_0037159_0046688_0056476_0063535_0067865_0067465_0063824_0055853_0047594_0039894_0032824_0027000,
  1_0000000_0000100_0000971_0007880_0018000_0024778_0035133_0045178_0056067_0064200_0070511_0072689_0070533_0065111_0056444_0047867_0039956_0032889_0027000,
  1_0000000_0000100_0000564_0006293_0017000_0023447_0032689_0044068_0054174_0064153_0071521_0076279_0076426_0073337_0066158_0056816_0047995_0039989_0032947_0027000,
  1_0000000_0000100_0000100_0005000_0016000_0022000_0030000_0043000_0052000_0064000_0072000_0079000_0082000_0080000_0076000_0067000_0057000_0048000_0040000_0033000_0027000,
  1_0000000_0000000_0000272_0005613_0016133_0025943_0039514_0058467_0078762_0098686_0113990_0124229_0130686_0131733_0127467_0119229_0108681_0098376_0088886_0080590_0076681_0076300,
  1_0000000_0000000_0000411_0005949_0016145_0028327_0045236_0069055_0097455_0126982_0152691_0167600_0178145_0182800_0180982_0172873_0161600_0150145_0139527_0129564_0121709_0120873_0125600,
  1_0000000_0000000_0000521_0006045_0016052_0029357_0047661_0075400_0109400_0148522_0183113_0206444_0221443_0230852_0233635_0229357_0216487_0203226_0191422_0180483_0170061_0163287_0165509_0174900,
  1_0000000_0000000_0000607_0005930_0015867_0029200_0047200_0079533_0117867_0162500_0206933_0242533_0263200_0276700_0283267_0282600_0273867_0258700_0244200_0232533_0221267_0210400_0205267_0210533_0224200,
  1_0000000_0000000_0000670_0005630_0015600_0028000_0048400_0081400_0122600_0170400_0226000_0270800_0299400_0318400_0330800_0336000_0331200_0316800_0300200_0285500_0273500_0261900_0250600_0247600_0255900_0273500,
  1_0000000_0000000_0000714_0005166_0015262_0027877_0048492_0080646_0124031_0174185_0235692_0290708_0333262_0358800_0374800_0383477_0384708_0378031_0358338_0341108_0326646_0314400_0302400_0290677_0290246_0301569_0322800,
  1_0000000_0000000_0000740_0004557_0014979_0027674_0047600_0077563_0123415_0177267_0240074_0306504_0361022_0392748_0415156_0430578_0436430_0433096_0420267_0399044_0381489_0367656_0355152_0342793_0330644_0333170_0347507_0372100,
  1_0000000_0000000_0000751_0003817_0014803_0027400_0045829_0072400_0122114_0177400_0239714_0315286_0377486_0424686_0454400_0472543_0483486_0487200_0481200_0461257_0439829_0421400_0408543_0395771_0383086_0370514_0376343_0393686_0421400,
  1_0000000_0000000_0000749_0002961_0014471_0027062_0043269_0071614_0118683_0174890_0237855_0316414_0390359_0453255_0486407_0511752_0530221_0536634_0535393_0526234_0501131_0480131_0462424_0449321_0436272_0423262_0410296_0419738_0440079_0470700,
  1_0000000_0000000_0000733_0002000_0014000_0026667_0040000_0070000_0113333_0170000_0236667_0313333_0400000_0466667_0516667_0550000_0570000_0583333_0590000_0583333_0566667_0540000_0520000_0503333_0490000_0476667_0463333_0450000_0463333_0486667_0520000,
  1_0000000_0000000_0002690_0008245_0030400_0055032_0080839_0113097_0151806_0205032_0264355_0328710_0406774_0473613_0531452_0560484_0583710_0601129_0606290_0606419_0599968_0578710_0556968_0540194_0527290_0515806_0504839_0493871_0486194_0508129_0549936_0608000,
  1_0000000_0000000_0004110_0013685_0043800_0079500_0117000_0154500_0192000_0242000_0295000_0352500_0420000_0486500_0539000_0575000_0600000_0615000_0625000_0627500_0623000_0613750_0592500_0575750_0562000_0552000_0542500_0533750_0525000_0524000_0554000_0614750_0696000,
  1_0000000_0000000_0005043_0018395_0054473_0100424_0148909_0194364_0235273_0280727_0328333_0381667_0439091_0501515_0550849_0593182_0614394_0631364_0644091_0646515_0645788_0639727_0626667_0607879_0596182_0585879_0577394_0570000_0563333_0556667_0563273_0600848_0680970_0784000,
  1_0000000_0000000_0005532_0022438_0062659_0118424_0176941_0232824_0276941_0321059_0365176_0413529_0463529_0518824_0568000_0608000_0632353_0650000_0660588_0667647_0666471_0662471_0656588_0641176_0626353_0618118_0610471_0603412_0598235_0593529_0588824_0603882_0648588_0748471_0872000,
  1_0000000_0000000_0005614_0025871_0068571_0133714_0201429_0270000_0317143_0362857_0404286_0447857_0493571_0541429_0590000_0624286_0653571_0667857_0679286_0687857_0687857_0685000_0679286_0671429_0657143_0647143_0641429_0635714_0630000_0627143_0624286_0621429_0645714_0697143_0817143_0960000,
  1_0000000_0000000_0005324_0028747_0072400_0146400_0222667_0300444_0356000_0406000_0444889_0484444_0526667_0568889_0611111_0645333_0674222_0688889_0700000_0706667_0711111_0706667_0701778_0696222_0686667_0674444_0669333_0666000_0661556_0657778_0656667_0655556_0654444_0688667_0746444_0886889_1048000,
  1_0000000_0000000_0004692_0031109_0074314_0156692_0240919_0327405_0393622_0446324_0486865_0523351_0562027_0600811_0637027_0670757_0694541_0712838_0720946_0727432_0732297_0730135_0724189_0718676_0713270_0703243_0693892_0692811_0691189_0687946_0686216_0686757_0687297_0687838_0732649_0796433_0957622_1136000,
  1_0000000_0000000_0003745_0032998_0074463_0164779_0256421_0351158_0430105_0485368_0530105_0564316_0599474_0635263_0667368_0697895_0719158_0738105_0744737_0750000_0753158_0755263_0747895_0740947_0735684_0729474_0721053_0716421_0717474_0716947_0714842_0715263_0717368_0719474_0721579_0777579_0847053_1029260_1224000,
  1_0000000_0000000_0002507_0034451_0072985_0170831_0269385_0371949_0465538_0523231_0574513_0606564_0638846_0671667_0701795_0726923_0747744_0762103_0771154_0773718_0775769_0777308_0773205_0764487_0757923_0752795_0746667_0740000_0740154_0743231_0743231_0742205_0744872_0748461_0752051_0755641_0823385_0898256_1101740_1312000,
  1_0000000_0000000_0001000_0035500_0070000_0175000_0280000_0390000_0500000_0560000_0620000_0650000_0680000_0710000_0740000_0760000_0780000_0790000_0800000_0800000_0800000_0800000_0800000_0790000_0780000_0775000_0770000_0765000_0760000_0765000_0770000_0770000_0770000_0775000_0780000_0785000_0790000_0870000_0950000_1175000_1400000,
  1_0000000_0000000_0000000_0048483_0098044_0194756_0296707_0398244_0499707_0565268_0621854_0657585_0686366_0714463_0742268_0764049_0782585_0795854_0805610_0810000_0810000_0810000_0810000_0806049_0797268_0790049_0785171_0780293_0775415_0773317_0777707_0781122_0781610_0783171_0789024_0795317_0804098_0820439_0904829_0997317_1243660_1490000,
  1_0000000_0000000_0000000_0059314_0123219_0215238_0314286_0409333_0502667_0572000_0625333_0665810_0693429_0720286_0746000_0769143_0786286_0801905_0811429_0820000_0820000_0820000_0820000_0820000_0813143_0805524_0800190_0795429_0790667_0785905_0786286_0790095_0792476_0793429_0796667_0803333_0811714_0824095_0851714_0940286_1046670_1313330_1580000,
  1_0000000_0000000_0000000_0068144_0145726_0236395_0332674_0423070_0508651_0580093_0630326_0674628_0701140_0727372_0751093_0774814_0791023_0806837_0817442_0826744_0830000_0830000_0830000_0830000_0827721_0821209_0815070_0810419_0805767_0801116_0796465_0798930_0802186_0804047_0805442_0810465_0817907_0829116_0844930_0883767_0976326_1097910_1383950_1670000,
  1_0000000_0000000_0000000_0075109_0165745_0258182_0351818_0439273_0517455_0589455_0636727_0684000_0709455_0734909_0757455_0779273_0796727_0811273_0823636_0832727_0840000_0840000_0840000_0840000_0840000_0835636_0830182_0825273_0820727_0816182_0811636_0808545_0811273_0814000_0815818_0817636_0824545_0832727_0847454_0866545_0916546_1012910_1150910_1455450_1760000,
  1_0000000_0000000_0000000_0080333_0183444_0280556_0371667_0457778_0528889_0600000_0644444_0688889_0718333_0742778_0765000_0785000_0803333_0816667_0830000_0838889_0847778_0850000_0850000_0850000_0850000_0848889_0844444_0840000_0835556_0831111_0826667_0822222_0821111_0823333_0825556_0827778_0830000_0838889_0847778_0866667_0888889_0950000_1050000_1205560_1527780_1850000,
  1_0000000_0000000_0000000_0083930_0198974_0303478_0392174_0478435_0542783_0607130_0653391_0695130_0727739_0751217_0773652_0791913_0810174_0822957_0835130_0845217_0853913_0860000_0860000_0860000_0860000_0860000_0857565_0854087_0850261_0845913_0841565_0837217_0832870_0833391_0835130_0837304_0839913_0843913_0853478_0863043_0886696_0911913_0984087_1087560_1261740_1600870_1940000,
  1_0000000_0000000_0000000_0086004_0212472_0326915_0413298_0499681_0558979_0616851_0663489_0702638_0737638_0760191_0782745_0799936_0816532_0830085_0841149_0851702_0860213_0868723_0870000_0870000_0870000_0870000_0869617_0867064_0864511_0860596_0856340_0852085_0847830_0844128_0845404_0846681_0849234_0852213_0858085_0868298_0879404_0907489_0935574_1018770_1125570_1319360_1674680_2030000,
  1_0000000_0000000_0000000_0086650_0224067_0350833_0435000_0519167_0577333_0629000_0674667_0711333_0748000_0769667_0791333_0809000_0824000_0838000_0848000_0858000_0866667_0875000_0880000_0880000_0880000_0880000_0880000_0879000_0877333_0875167_0871000_0866833_0862667_0858500_0856333_0857167_0858000_0861333_0864667_0872500_0883333_0898167_0929000_0959833_1054000_1164000_1378330_1749170_2120000,
  1_0000000_0000000_0000000_0085955_0233873_0375204_0457245_0539286_0597714_0643429_0686857_0721143_0755428_0779612_0800429_0819041_0832510_0845980_0855633_0864612_0873265_0881429_0889592_0890000_0890000_0890000_0890000_0889959_0889143_0888326_0885551_0881469_0877388_0873306_0869224_0868286_0868694_0869918_0873592_0877265_0887143_0898571_0917714_0951184_0984653_1089760_1202820_1438570_1824290_2210000,
  1_0000000_0000000_0000000_0084000_0242000_0400000_0480000_0560000_0620000_0660000_0700000_0732000_0764000_0790000_0810000_0830000_0842000_0854000_0864000_0872000_0880000_0888000_0896000_0900000_0900000_0900000_0900000_0900000_0900000_0900000_0900000_0896000_0892000_0888000_0884000_0880000_0880000_0880000_0882000_0886000_0890000_0902000_0914000_0938000_0974000_1010000_1126000_1242000_1500000_1900000_2300000,
  1_0000000_0000000_0000000_0078941_0233255_0387569_0473941_0552765_0618137_0658529_0698922_0731784_0762765_0790706_0809529_0828353_0841961_0853333_0864118_0871569_0879020_0886471_0893922_0901000_0901000_0901000_0901000_0901000_0901000_0901000_0901000_0899588_0896059_0892529_0889333_0886196_0884118_0884510_0884902_0888235_0892549_0898510_0911059_0923608_0949412_0982353_1024860_1153490_1282120_1562160_1966080_2370000,
  1_0000000_0000000_0000000_0074308_0225077_0375846_0468154_0545846_0616154_0656923_0697692_0732000_0762000_0792000_0809692_0827385_0842308_0853077_0863846_0871538_0878462_0885385_0892308_0899231_0902000_0902000_0902000_0902000_0902000_0902000_0902000_0902000_0899538_0896462_0893538_0891231_0888923_0888462_0889231_0890000_0894615_0899231_0907231_0920308_0933385_0960000_0990000_1042150_1182920_1323690_1624620_2032310_2440000,
  1_0000000_0000000_0000000_0070075_0217434_0364792_0462623_0539226_0614057_0655189_0696321_0732623_0761679_0790736_0810453_0827057_0843019_0853208_0863396_0871887_0878302_0884717_0891132_0897547_0903000_0903000_0903000_0903000_0903000_0903000_0903000_0903000_0902472_0899830_0897189_0895170_0893660_0892151_0893019_0894151_0896226_0901132_0906038_0916151_0929736_0943321_0969811_0996981_1061740_1214190_1366640_1687360_2098680_2510000,
  1_0000000_0000000_0000000_0066222_0210296_0354370_0457333_0532889_0608444_0653333_0694815_0733630_0761778_0789926_0811778_0827333_0842889_0853704_0863333_0872593_0878519_0884444_0890370_0896296_0902222_0904000_0904000_0904000_0904000_0904000_0904000_0904000_0904000_0902667_0900444_0898222_0897333_0896593_0896296_0897778_0899259_0902593_0907778_0912963_0925259_0939333_0954444_0978889_1003330_1083480_1247180_1410890_1750370_2165180_2580000,
  1_0000000_0000000_0000000_0062727_0203636_0344545_0452273_0526818_0601364_0651364_0693182_0735000_0762273_0789545_0813636_0828182_0842727_0854545_0863636_0872727_0879091_0884545_0890000_0895455_0900909_0905000_0905000_0905000_0905000_0905000_0905000_0905000_0905000_0905000_0903182_0901364_0900000_0900000_0900000_0900909_0902727_0904545_0909091_0914545_0920000_0934545_0949091_0965455_0987273_1009090_1107270_1281820_1456360_1813640_2231820_2650000,
  1_0000000_0000000_0000000_0059571_0197429_0335286_0447429_0521000_0594571_0649286_0691429_0733571_0763143_0789571_0816000_0829571_0843143_0855714_0864286_0872857_0880000_0885000_0890000_0895000_0900000_0905000_0906000_0906000_0906000_0906000_0906000_0906000_0906000_0906000_0905429_0904000_0902571_0902429_0903143_0903857_0905714_0907857_0910000_0915714_0921429_0929000_0944000_0959000_0975714_0995000_1014290_1133000_1318000_1503000_1877140_2298570_2720000,
  1_0000000_0000000_0000000_0056737_0191649_0326561_0442789_0515421_0588053_0647105_0689561_0732018_0764368_0789982_0815596_0831474_0844105_0856737_0865263_0873333_0881228_0885789_0890351_0894912_0899474_0904035_0907000_0907000_0907000_0907000_0907000_0907000_0907000_0907000_0907000_0906158_0905105_0904053_0905333_0906737_0908246_0910702_0913158_0916491_0922456_0928421_0938175_0953614_0969053_0985263_1002100_1018950_1160560_1355650_1550740_1940880_2365440_2790000,
  1_0000000_0000000_0000000_0054207_0186276_0318345_0438345_0510069_0581793_0644828_0687586_0730345_0765931_0790759_0815586_0833862_0845586_0857310_0866552_0874138_0881724_0886897_0891034_0895172_0899310_0903448_0907586_0908000_0908000_0908000_0908000_0908000_0908000_0908000_0908000_0907862_0907172_0906483_0906621_0908690_0910759_0913103_0915862_0918621_0923103_0929310_0935517_0947517_0963379_0979241_0994138_1008620_1023100_1189860_1394690_1599520_2004830_2432410_2860000,
  1_0000000_0000000_0000000_0051966_0181288_0310610_0434085_0504932_0575780_0642458_0685508_0728559_0767814_0791881_0815949_0836712_0847559_0858407_0868136_0875254_0882373_0888305_0892034_0895763_0899492_0903220_0906949_0909000_0909000_0909000_0909000_0909000_0909000_0909000_0909000_0909000_0908797_0908458_0908119_0909763_0912475_0915186_0918136_0921186_0924237_0929830_0936271_0942712_0957017_0973288_0989559_1002370_1014580_1026780_1220810_1435050_1649290_2068980_2499490_2930000,
  1_0000000_0000000_0000000_0050000_0176667_0303333_0430000_0500000_0570000_0640000_0683333_0726667_0770000_0793333_0816667_0840000_0850000_0860000_0870000_0876667_0883333_0890000_0893333_0896667_0900000_0903333_0906667_0910000_0910000_0910000_0910000_0910000_0910000_0910000_0910000_0910000_0910000_0910000_0910000_0910000_0913333_0916667_0920000_0923333_0926667_0930000_0936667_0943333_0950000_0966667_0983333_1000000_1010000_1020000_1030000_1253330_1476670_1700000_2133330_2566670_3000000,
  1_0000000_0000000_0000000_0000000_0183361_0307951_0432541_0505787_0573328_0640869_0686115_0727426_0768738_0794574_0816541_0838508_0851131_0860639_0870148_0877590_0884148_0890705_0895344_0898951_0902557_0905967_0909246_0912525_0914000_0914000_0914000_0914000_0914000_0914000_0914000_0914000_0914000_0914000_0914000_0914000_0915033_0917984_0920934_0924082_0927689_0931295_0935721_0942607_0949492_0958082_0973492_0988902_1003430_1012930_1022440_1054900_1293920_1532930_1781970_2221310_2660660_3100000,
  1_0000000_0000000_0000000_0000000_0190323_0312903_0435484_0512129_0577290_0642452_0689548_0728903_0768258_0796387_0817032_0837677_0852516_0861548_0870581_0878581_0885032_0891484_0897161_0901032_0904903_0908645_0911871_0915097_0918000_0918000_0918000_0918000_0918000_0918000_0918000_0918000_0918000_0918000_0918000_0918000_0918000_0919806_0922387_0924968_0928323_0932194_0936065_0941548_0948645_0955742_0965677_0979871_0994064_1006710_1015740_1024770_1082840_1337030_1591230_1864520_2309680_2754840_3200000,
  1_0000000_0000000_0000000_0000000_0197540_0318175_0438809_0519000_0581857_0644714_0693603_0731063_0768524_0798746_0818111_0837476_0854143_0862714_0871286_0879635_0885984_0892333_0898683_0902921_0907048_0911175_0914540_0917714_0920889_0922000_0922000_0922000_0922000_0922000_0922000_0922000_0922000_0922000_0922000_0922000_0922000_0922111_0924333_0926556_0928778_0932714_0936841_0940968_0947476_0954778_0962079_0972809_0985825_0998841_1009860_1018430_1027000_1113670_1382560_1651450_1947620_2398410_2849210_3300000,
  1_0000000_0000000_0000000_0000000_0205000_0323750_0442500_0526375_0587000_0647625_0698250_0733875_0769500_0801625_0819750_0837875_0856000_0864125_0872250_0880375_0887000_0893250_0899500_0904625_0909000_0913375_0917250_0920375_0923500_0926000_0926000_0926000_0926000_0926000_0926000_0926000_0926000_0926000_0926000_0926000_0926000_0926000_0926750_0928625_0930500_0932875_0937250_0941625_0946000_0953500_0961000_0968500_0979500_0991375_1003250_1012870_1021000_1029120_1147250_1430370_1713500_2031250_2487500_2943750_3400000,
  1_0000000_0000000_0000000_0000000_0212692_0329615_0446538_0534231_0592692_0651154_0703462_0737308_0771154_0805000_0821923_0838846_0855769_0865769_0873462_0881154_0888077_0894231_0900385_0906154_0910769_0915385_0920000_0923077_0926154_0929231_0930000_0930000_0930000_0930000_0930000_0930000_0930000_0930000_0930000_0930000_0930000_0930000_0930000_0931154_0932692_0934231_0937308_0941923_0946539_0951923_0959615_0967308_0975000_0985769_0996538_1007310_1015770_1023460_1031150_1183460_1480380_1777310_2115390_2576920_3038460_3500000,
  1_0000000_0000000_0000000_0000000_0220606_0335758_0450909_0542545_0598909_0655273_0709212_0741333_0773455_0805576_0824606_0840364_0856121_0867636_0874909_0882182_0889212_0895273_0901333_0907394_0912364_0917212_0922061_0925818_0928849_0931879_0934000_0934000_0934000_0934000_0934000_0934000_0934000_0934000_0934000_0934000_0934000_0934000_0934000_0934121_0935333_0936545_0937758_0941879_0946727_0951576_0957939_0965818_0973697_0981939_0991636_1001330_1011030_1018550_1025820_1033090_1222180_1532490_1842790_2200000_2666670_3133330_3600000,
  1_0000000_0000000_0000000_0000000_0228731_0342164_0455597_0551298_0605627_0659955_0714284_0745925_0776373_0806821_0827776_0842403_0857030_0869716_0876582_0883448_0890313_0896373_0902343_0908313_0913791_0918866_0923940_0928597_0931582_0934567_0937552_0938000_0938000_0938000_0938000_0938000_0938000_0938000_0938000_0938000_0938000_0938000_0938000_0938000_0938403_0939299_0940194_0941507_0946582_0951657_0956731_0964045_0972104_0980164_0988463_0997119_1005780_1014340_1021210_1028070_1034940_1263300_1586580_1909870_2285070_2756720_3228360_3700000,
  1_0000000_0000000_0000000_0000000_0237059_0348824_0460588_0560471_0612823_0665176_0717529_0751059_0779882_0808706_0831412_0844941_0858471_0872000_0878471_0884941_0891412_0897529_0903412_0909294_0915059_0920353_0925647_0930941_0934353_0937294_0940235_0942000_0942000_0942000_0942000_0942000_0942000_0942000_0942000_0942000_0942000_0942000_0942000_0942000_0942000_0942471_0943059_0943647_0946118_0951412_0956706_0962000_0970235_0978471_0986706_0994588_1002240_1009880_1017290_1023760_1030240_1036710_1306710_1642590_1978470_2370590_2847060_3323530_3800000,
  1_0000000_0000000_0000000_0000000_0245580_0355725_0465870_0570043_0620478_0670913_0721348_0756710_0783956_0811203_0835493_0847956_0860420_0872884_0880565_0886652_0892739_0898739_0904536_0910333_0916130_0921681_0927188_0932696_0937159_0940058_0942957_0945855_0946000_0946000_0946000_0946000_0946000_0946000_0946000_0946000_0946000_0946000_0946000_0946000_0946000_0946043_0946333_0946623_0946913_0950855_0956362_0961870_0968101_0976507_0984913_0993319_1000330_1007000_1013670_1020130_1026220_1032300_1038390_1352310_1700420_2048540_2456520_2937680_3418840_3900000,
  1_0000000_0000000_0000000_0000000_0254286_0362857_0471429_0580000_0628571_0677143_0725714_0762857_0788571_0814286_0840000_0851429_0862857_0874286_0882857_0888571_0894286_0900000_0905714_0911429_0917143_0922857_0928571_0934286_0940000_0942857_0945714_0948571_0950000_0950000_0950000_0950000_0950000_0950000_0950000_0950000_0950000_0950000_0950000_0950000_0950000_0950000_0950000_0950000_0950000_0950000_0955714_0961429_0967143_0974286_0982857_0991429_1000000_1005710_1011430_1017140_1022860_1028570_1034290_1040000_1400000_1760000_2120000_2542860_3028570_3514290_4000000,
  1_0000000_0000000_0000000_0000000_0257789_0363986_0470183_0576380_0629676_0677094_0724512_0764042_0788925_0813807_0838690_0852380_0863272_0874164_0883812_0889728_0895643_0901559_0907146_0912592_0918038_0923484_0928930_0934376_0939822_0943634_0946357_0949080_0951667_0951667_0951667_0951667_0951667_0951667_0951667_0951667_0951667_0951667_0951667_0951667_0951667_0951667_0951667_0951667_0951667_0951667_0953300_0958746_0964193_0969639_0977127_0985296_0993465_1001090_1006540_1011980_1017430_1022870_1028320_1033760_1072980_1416080_1759170_2102270_2511270_2974180_3437090_3900000,
  1_0000000_0000000_0000000_0000000_0261556_0365444_0469333_0573222_0631037_0677333_0723630_0765481_0789556_0813630_0837704_0853556_0863926_0874296_0884667_0890778_0896889_0903000_0908741_0913926_0919111_0924296_0929482_0934667_0939852_0944519_0947111_0949704_0952296_0953333_0953333_0953333_0953333_0953333_0953333_0953333_0953333_0953333_0953333_0953333_0953333_0953333_0953333_0953333_0953333_0953333_0953333_0956444_0961630_0966815_0972000_0979778_0987556_0995333_1002070_1007260_1012440_1017630_1022810_1028000_1033190_1102670_1429330_1756000_2082670_2477780_2918520_3359260_3800000,
  1_0000000_0000000_0000000_0000000_0265575_0367219_0468863_0570507_0632644_0677849_0723055_0767164_0790452_0813740_0837027_0854945_0864808_0874671_0884534_0891726_0898027_0904329_0910493_0915425_0920356_0925288_0930219_0935151_0940082_0945014_0947973_0950438_0952904_0955000_0955000_0955000_0955000_0955000_0955000_0955000_0955000_0955000_0955000_0955000_0955000_0955000_0955000_0955000_0955000_0955000_0955000_0955000_0959438_0964370_0969301_0974849_0982247_0989644_0997041_1002960_1007890_1012820_1017750_1022690_1027620_1032550_1129210_1439890_1750580_2061260_2442470_2861640_3280820_3700000,
  1_0000000_0000000_0000000_0000000_0269838_0369297_0468757_0568216_0634486_0678631_0722775_0766919_0791604_0814126_0836649_0856541_0865910_0875279_0884649_0892577_0899063_0905550_0912036_0917081_0921766_0926450_0931135_0935820_0940504_0945189_0948937_0951279_0953622_0955964_0956667_0956667_0956667_0956667_0956667_0956667_0956667_0956667_0956667_0956667_0956667_0956667_0956667_0956667_0956667_0956667_0956667_0956667_0957604_0962288_0966973_0971658_0977514_0984541_0991568_0998595_1003750_1008430_1013120_1017800_1022490_1027170_1031860_1152720_1447860_1742990_2038130_2405410_2803610_3201800_3600000,
  1_0000000_0000000_0000000_0000000_0274333_0371667_0469000_0566333_0636556_0679667_0722778_0765889_0793000_0814778_0836556_0858333_0867222_0876111_0885000_0893333_0900000_0906667_0913333_0918889_0923333_0927778_0932222_0936667_0941111_0945556_0950000_0952222_0954444_0956667_0958333_0958333_0958333_0958333_0958333_0958333_0958333_0958333_0958333_0958333_0958333_0958333_0958333_0958333_0958333_0958333_0958333_0958333_0958333_0960556_0965000_0969444_0973889_0980000_0986667_0993333_1000000_1004440_1008890_1013330_1017780_1022220_1026670_1031110_1173330_1453330_1733330_2013330_2366670_2744440_3122220_3500000,
  1_0000000_0000000_0000000_0000000_0279053_0374316_0469579_0564842_0638842_0680947_0723053_0765158_0794632_0815684_0836737_0857789_0868737_0877158_0885579_0894000_0900842_0907684_0914526_0920842_0925053_0929263_0933474_0937684_0941895_0946105_0950316_0953263_0955368_0957474_0959579_0960000_0960000_0960000_0960000_0960000_0960000_0960000_0960000_0960000_0960000_0960000_0960000_0960000_0960000_0960000_0960000_0960000_0960000_0960000_0963368_0967579_0971789_0976000_0982316_0988632_0994947_1000840_1005050_1009260_1013470_1017680_1021900_1026110_1030320_1191160_1456420_1721690_1986950_2326320_2684210_3042110_3400000,
  1_0000000_0000000_0000000_0000000_0283987_0377234_0470481_0563727_0641338_0682463_0723589_0764714_0796489_0816836_0837182_0857528_0870446_0878411_0886377_0894342_0901593_0908606_0915619_0922632_0926918_0930900_0934883_0938866_0942849_0946831_0950814_0954398_0956390_0958381_0960372_0961667_0961667_0961667_0961667_0961667_0961667_0961667_0961667_0961667_0961667_0961667_0961667_0961667_0961667_0961667_0961667_0961667_0961667_0961667_0962065_0966048_0970030_0974013_0978494_0984468_0990442_0996416_1001590_1005580_1009560_1013540_1017520_1021510_1025490_1029470_1206300_1457210_1708120_1959030_2284420_2622940_2961470_3300000,
  1_0000000_0000000_0000000_0000000_0289128_0380410_0471692_0562974_0644034_0684205_0724376_0764547_0798564_0818222_0837880_0857538_0872342_0879863_0887385_0894906_0902256_0909436_0916615_0923795_0928923_0932684_0936444_0940205_0943966_0947726_0951487_0955248_0957504_0959385_0961265_0963145_0963333_0963333_0963333_0963333_0963333_0963333_0963333_0963333_0963333_0963333_0963333_0963333_0963333_0963333_0963333_0963333_0963333_0963333_0963333_0964838_0968598_0972359_0976120_0980821_0986462_0992103_0997744_1002260_1006020_1009780_1013540_1017300_1021060_1024820_1028580_1218870_1455800_1692720_1929640_2241030_2560680_2880340_3200000,
  1_0000000_0000000_0000000_0000000_0294468_0383835_0473203_0562570_0646924_0686165_0725405_0764646_0800848_0819835_0838823_0857810_0874418_0881506_0888595_0895684_0902835_0910177_0917519_0924861_0931063_0934608_0938152_0941696_0945240_0948785_0952329_0955873_0958709_0960481_0962253_0964025_0965000_0965000_0965000_0965000_0965000_0965000_0965000_0965000_0965000_0965000_0965000_0965000_0965000_0965000_0965000_0965000_0965000_0965000_0965000_0965000_0967481_0971025_0974570_0978114_0982987_0988304_0993620_0998937_1002840_1006380_1009920_1013470_1017010_1020560_1024100_1027650_1228960_1452250_1675540_1898840_2196200_2497470_2798730_3100000,
  1_0000000_0000000_0000000_0000000_0300000_0387500_0475000_0562500_0650000_0688333_0726667_0765000_0803333_0821667_0840000_0858333_0876667_0883333_0890000_0896667_0903333_0910833_0918333_0925833_0933333_0936667_0940000_0943333_0946667_0950000_0953333_0956667_0960000_0961667_0963333_0965000_0966667_0966667_0966667_0966667_0966667_0966667_0966667_0966667_0966667_0966667_0966667_0966667_0966667_0966667_0966667_0966667_0966667_0966667_0966667_0966667_0966667_0970000_0973333_0976667_0980000_0985000_0990000_0995000_1000000_1003330_1006670_1010000_1013330_1016670_1020000_1023330_1026670_1236670_1446670_1656670_1866670_2150000_2433330_2716670_3000000,
  1_0000000_0000000_0000000_0000000_0000000_0391395_0477074_0562753_0648432_0690704_0728152_0765601_0803049_0823708_0841403_0859099_0876794_0885337_0891593_0897848_0904103_0911407_0919062_0926716_0934370_0938856_0941984_0945111_0948239_0951366_0954494_0957621_0960749_0962938_0964502_0966066_0967630_0968333_0968333_0968333_0968333_0968333_0968333_0968333_0968333_0968333_0968333_0968333_0968333_0968333_0968333_0968333_0968333_0968333_0968333_0968333_0968333_0969272_0972399_0975527_0978654_0982173_0986864_0991556_0996247_1000630_1003750_1006880_1010010_1013140_1016260_1019390_1022520_1045040_1242070_1439110_1636150_1836630_2102470_2368310_2634160_2900000,
  1_0000000_0000000_0000000_0000000_0000000_0395512_0479415_0563317_0647220_0693268_0729854_0766439_0803024_0825951_0843024_0860098_0877171_0887512_0893366_0899220_0905073_0911902_0919707_0927512_0935317_0941171_0944098_0947024_0949951_0952878_0955805_0958732_0961659_0964293_0965756_0967219_0968683_0970000_0970000_0970000_0970000_0970000_0970000_0970000_0970000_0970000_0970000_0970000_0970000_0970000_0970000_0970000_0970000_0970000_0970000_0970000_0970000_0970000_0971756_0974683_0977610_0980537_0984195_0988585_0992976_0997366_1001170_1004100_1007020_1009950_1012880_1015810_1018730_1021660_1060880_1245270_1429660_1614050_1804880_2053660_2302440_2551220_2800000,
  1_0000000_0000000_0000000_0000000_0000000_0399843_0482012_0564181_0646349_0696020_0731763_0767506_0803249_0828390_0844855_0861321_0877787_0889851_0895313_0900775_0906237_0912321_0920273_0928225_0936177_0943606_0946337_0949068_0951799_0954530_0957261_0959992_0962723_0965454_0967092_0968458_0969823_0971189_0971667_0971667_0971667_0971667_0971667_0971667_0971667_0971667_0971667_0971667_0971667_0971667_0971667_0971667_0971667_0971667_0971667_0971667_0971667_0971667_0971667_0974124_0976855_0979586_0982317_0986072_0990169_0994265_0998361_1001640_1004370_1007100_1009830_1012560_1015290_1018020_1020760_1074280_1246330_1418380_1590430_1771490_2003610_2235740_2467870_2700000,
  1_0000000_0000000_0000000_0000000_0000000_0404381_0484857_0565333_0645809_0698952_0733873_0768794_0803714_0831016_0846889_0862762_0878635_0892349_0897429_0902508_0907587_0912667_0920762_0928857_0936952_0945048_0948698_0951238_0953778_0956317_0958857_0961397_0963937_0966476_0968508_0969778_0971048_0972317_0973333_0973333_0973333_0973333_0973333_0973333_0973333_0973333_0973333_0973333_0973333_0973333_0973333_0973333_0973333_0973333_0973333_0973333_0973333_0973333_0973333_0973841_0976381_0978921_0981460_0984000_0987810_0991619_0995429_0999238_1002030_1004570_1007110_1009650_1012190_1014730_1017270_1019810_1085330_1245330_1405330_1565330_1736510_1952380_2168250_2384130_2600000,
  1_0000000_0000000_0000000_0000000_0000000_0409118_0487941_0566765_0645588_0702059_0736176_0770294_0804412_0833824_0849118_0864412_0879706_0895000_0899706_0904412_0909118_0913823_0921176_0929412_0937647_0945882_0951176_0953529_0955882_0958235_0960588_0962941_0965294_0967647_0970000_0971177_0972353_0973529_0974706_0975000_0975000_0975000_0975000_0975000_0975000_0975000_0975000_0975000_0975000_0975000_0975000_0975000_0975000_0975000_0975000_0975000_0975000_0975000_0975000_0975000_0976177_0978529_0980882_0983235_0985882_0989412_0992941_0996471_1000000_1002350_1004710_1007060_1009410_1011770_1014120_1016470_1018820_1094120_1242350_1390590_1538820_1700000_1900000_2100000_2300000_2500000,
  1_0000000_0000000_0000000_0000000_0000000_0414047_0491256_0568465_0645674_0705333_0738667_0772000_0805333_0836806_0851535_0866264_0880992_0895721_0902139_0906481_0910822_0915163_0921519_0929891_0938264_0946636_0953767_0955938_0958109_0960279_0962450_0964620_0966791_0968961_0971132_0972651_0973736_0974822_0975907_0976667_0976667_0976667_0976667_0976667_0976667_0976667_0976667_0976667_0976667_0976667_0976667_0976667_0976667_0976667_0976667_0976667_0976667_0976667_0976667_0976667_0976667_0978403_0980574_0982744_0984915_0987628_0990884_0994140_0997395_1000430_1002600_1004780_1006950_1009120_1011290_1013460_1015630_1017800_1100710_1237460_1374200_1510950_1662020_1846510_2031010_2215500_2400000,
  1_0000000_0000000_0000000_0000000_0000000_0419161_0494793_0570425_0646057_0708770_0741337_0773904_0806471_0839038_0854134_0868310_0882487_0896663_0904724_0908709_0912694_0916678_0921793_0930299_0938805_0947310_0955816_0958460_0960452_0962444_0964437_0966429_0968421_0970414_0972406_0974199_0975195_0976192_0977188_0978184_0978333_0978333_0978333_0978333_0978333_0978333_0978333_0978333_0978333_0978333_0978333_0978333_0978333_0978333_0978333_0978333_0978333_0978333_0978333_0978333_0978333_0978533_0980525_0982517_0984510_0986502_0989241_0992230_0995218_0998207_1000800_1002790_1004780_1006770_1008770_1010760_1012750_1014740_1016740_1105200_1230710_1356230_1481750_1622600_1791950_1961300_2130650_2300000,
  1_0000000_0000000_0000000_0000000_0000000_0424455_0498545_0572636_0646727_0712364_0744182_0776000_0807818_0839636_0856909_0870545_0884182_0897818_0907455_0911091_0914727_0918364_0922000_0930636_0939273_0947909_0956545_0961091_0962909_0964727_0966545_0968364_0970182_0972000_0973818_0975636_0976727_0977636_0978545_0979455_0980000_0980000_0980000_0980000_0980000_0980000_0980000_0980000_0980000_0980000_0980000_0980000_0980000_0980000_0980000_0980000_0980000_0980000_0980000_0980000_0980000_0980000_0980727_0982545_0984364_0986182_0988000_0990727_0993455_0996182_0998909_1001090_1002910_1004730_1006540_1008360_1010180_1012000_1013820_1015640_1107640_1222180_1336730_1451270_1581820_1736360_1890910_2045450_2200000,
  1_0000000_0000000_0000000_0000000_0000000_0429921_0502506_0575090_0647674_0716109_0747195_0778281_0809367_0840453_0859854_0872963_0886071_0899180_0910326_0913622_0916918_0920213_0923509_0930906_0939670_0948434_0957199_0963828_0965476_0967124_0968772_0970419_0972067_0973715_0975363_0977011_0978330_0979154_0979978_0980802_0981625_0981667_0981667_0981667_0981667_0981667_0981667_0981667_0981667_0981667_0981667_0981667_0981667_0981667_0981667_0981667_0981667_0981667_0981667_0981667_0981667_0981667_0981667_0982820_0984468_0986116_0987764_0989618_0992090_0994562_0997034_0999506_1001320_1002970_1004610_1006260_1007910_1009560_1011210_1012850_1014500_1108100_1211930_1315750_1419570_1539700_1679780_1819850_1959930_2100000,
  1_0000000_0000000_0000000_0000000_0000000_0435556_0506667_0577778_0648889_0720000_0750370_0780741_0811111_0841481_0862963_0875556_0888148_0900741_0913333_0916296_0919259_0922222_0925185_0931111_0940000_0948889_0957778_0966667_0968148_0969630_0971111_0972593_0974074_0975556_0977037_0978519_0980000_0980741_0981481_0982222_0982963_0983333_0983333_0983333_0983333_0983333_0983333_0983333_0983333_0983333_0983333_0983333_0983333_0983333_0983333_0983333_0983333_0983333_0983333_0983333_0983333_0983333_0983333_0983333_0984815_0986296_0987778_0989259_0991111_0993333_0995556_0997778_1000000_1001480_1002960_1004440_1005930_1007410_1008890_1010370_1011850_1013330_1106670_1200000_1293330_1386670_1496300_1622220_1748150_1874070_2000000,
  1_0000000_0000000_0000000_0000000_0000000_0441352_0511022_0580692_0650363_0720033_0753703_0783374_0813044_0842714_0866231_0878319_0890407_0902494_0914582_0919110_0921747_0924385_0927022_0931253_0940264_0949275_0958286_0967297_0970923_0972242_0973560_0974879_0976198_0977516_0978835_0980154_0981472_0982396_0983055_0983714_0984374_0985000_0985000_0985000_0985000_0985000_0985000_0985000_0985000_0985000_0985000_0985000_0985000_0985000_0985000_0985000_0985000_0985000_0985000_0985000_0985000_0985000_0985000_0985000_0985396_0986714_0988033_0989352_0990670_0992483_0994462_0996440_0998418_1000260_1001580_1002900_1004220_1005540_1006860_1008180_1009500_1010810_1020310_1103380_1186460_1269540_1352620_1451650_1563740_1675820_1787910_1900000,
  1_0000000_0000000_0000000_0000000_0000000_0447304_0515565_0583826_0652087_0720348_0757188_0786174_0815159_0844145_0869652_0881246_0892841_0904435_0916029_0922058_0924377_0926696_0929014_0931333_0940464_0949594_0958725_0967855_0973797_0974957_0976116_0977275_0978435_0979594_0980754_0981913_0983072_0984116_0984696_0985275_0985855_0986435_0986667_0986667_0986667_0986667_0986667_0986667_0986667_0986667_0986667_0986667_0986667_0986667_0986667_0986667_0986667_0986667_0986667_0986667_0986667_0986667_0986667_0986667_0986667_0987362_0988522_0989681_0990841_0992000_0993739_0995478_0997217_0998957_1000460_1001620_1002780_1003940_1005100_1006260_1007420_1008580_1009740_1025280_1098320_1171360_1244410_1317450_1405800_1504350_1602900_1701450_1800000,
  1_0000000_0000000_0000000_0000000_0000000_0453409_0520290_0587172_0654054_0720935_0760821_0789136_0817452_0845767_0873222_0884333_0895444_0906556_0917667_0925136_0927143_0929151_0931158_0933165_0940602_0949849_0959097_0968344_0976767_0977771_0978774_0979778_0980781_0981785_0982789_0983792_0984796_0985799_0986401_0986903_0987405_0987907_0988333_0988333_0988333_0988333_0988333_0988333_0988333_0988333_0988333_0988333_0988333_0988333_0988333_0988333_0988333_0988333_0988333_0988333_0988333_0988333_0988333_0988333_0988333_0988333_0989237_0990240_0991244_0992247_0993376_0994882_0996387_0997892_0999398_1000600_1001610_1002610_1003610_1004620_1005620_1006620_1007630_1008630_1028300_1091530_1154750_1217980_1281200_1358780_1444090_1529390_1614690_1700000,
  1_0000000_0000000_0000000_0000000_0000000_0459660_0525191_0590723_0656255_0721787_0764596_0792255_0819915_0847574_0875234_0887574_0898213_0908851_0919489_0928340_0930043_0931745_0933447_0935149_0940681_0950043_0959404_0968766_0978128_0980681_0981532_0982383_0983234_0984085_0984936_0985787_0986638_0987489_0988170_0988596_0989021_0989447_0989872_0990000_0990000_0990000_0990000_0990000_0990000_0990000_0990000_0990000_0990000_0990000_0990000_0990000_0990000_0990000_0990000_0990000_0990000_0990000_0990000_0990000_0990000_0990000_0990170_0991021_0991872_0992723_0993575_0994638_0995915_0997191_0998468_0999745_1000680_1001530_1002380_1003230_1004080_1004940_1005790_1006640_1007490_1029450_1083060_1136680_1190300_1243910_1310640_1382980_1455320_1527660_1600000,
  1_0000000_0000000_0000000_0000000_0000000_0466053_0530263_0594474_0658684_0722895_0768509_0795526_0822544_0849561_0876579_0890965_0901140_0911316_0921491_0931667_0933070_0934474_0935877_0937281_0940702_0950175_0959649_0969123_0978597_0983684_0984386_0985088_0985789_0986491_0987193_0987895_0988596_0989298_0990000_0990351_0990702_0991053_0991404_0991667_0991667_0991667_0991667_0991667_0991667_0991667_0991667_0991667_0991667_0991667_0991667_0991667_0991667_0991667_0991667_0991667_0991667_0991667_0991667_0991667_0991667_0991667_0991667_0992018_0992719_0993421_0994123_0994825_0995789_0996842_0997895_0998947_1000000_1000700_1001400_1002100_1002810_1003510_1004210_1004910_1005610_1006320_1028770_1072980_1117190_1161400_1205610_1261400_1321050_1380700_1440350_1500000,
  1_0000000_0000000_0000000_0000000_0000000_0472583_0535500_0598417_0661333_0724250_0772556_0798944_0825333_0851722_0878111_0894500_0904222_0913944_0923667_0933389_0936222_0937333_0938444_0939556_0940667_0950250_0959833_0969417_0979000_0986778_0987333_0987889_0988444_0989000_0989556_0990111_0990667_0991222_0991778_0992167_0992444_0992722_0993000_0993278_0993333_0993333_0993333_0993333_0993333_0993333_0993333_0993333_0993333_0993333_0993333_0993333_0993333_0993333_0993333_0993333_0993333_0993333_0993333_0993333_0993333_0993333_0993333_0993333_0993778_0994333_0994889_0995444_0996000_0996833_0997667_0998500_0999333_1000110_1000670_1001220_1001780_1002330_1002890_1003440_1004000_1004560_1005110_1026330_1061330_1096330_1131330_1166330_1211110_1258330_1305560_1352780_1400000,
  1_0000000_0000000_0000000_0000000_0000000_0479247_0540897_0602546_0664196_0725845_0776732_0802505_0828278_0854052_0879825_0898175_0907454_0916732_0926010_0935289_0939495_0940320_0941144_0941969_0942794_0950268_0959959_0969649_0979340_0989031_0990371_0990784_0991196_0991608_0992021_0992433_0992845_0993258_0993670_0994041_0994247_0994454_0994660_0994866_0995000_0995000_0995000_0995000_0995000_0995000_0995000_0995000_0995000_0995000_0995000_0995000_0995000_0995000_0995000_0995000_0995000_0995000_0995000_0995000_0995000_0995000_0995000_0995000_0995041_0995454_0995866_0996278_0996691_0997155_0997773_0998392_0999010_0999629_1000160_1000580_1000990_1001400_1001810_1002230_1002640_1003050_1003460_1003880_1022190_1048160_1074140_1100120_1126100_1159790_1194840_1229900_1264950_1300000,
  1_0000000_0000000_0000000_0000000_0000000_0486041_0546449_0606857_0667265_0727673_0781034_0806204_0831374_0856544_0881714_0901986_0910830_0919673_0928517_0937361_0942884_0943429_0943973_0944517_0945061_0950231_0960027_0969823_0979619_0989415_0993497_0993769_0994041_0994313_0994585_0994857_0995129_0995401_0995673_0995946_0996109_0996245_0996381_0996517_0996653_0996667_0996667_0996667_0996667_0996667_0996667_0996667_0996667_0996667_0996667_0996667_0996667_0996667_0996667_0996667_0996667_0996667_0996667_0996667_0996667_0996667_0996667_0996667_0996667_0996776_0997048_0997320_0997592_0997864_0998204_0998612_0999020_0999429_0999837_1000160_1000430_1000710_1000980_1001250_1001520_1001800_1002070_1002340_1002610_1016380_1033520_1050670_1067810_1084950_1107480_1130610_1153740_1176870_1200000,
  1_0000000_0000000_0000000_0000000_0000000_0492960_0552152_0611343_0670535_0729727_0785458_0810037_0834616_0859195_0883774_0905929_0914347_0922764_0931182_0939599_0946387_0946657_0946926_0947195_0947465_0950141_0960040_0969939_0979838_0989737_0996707_0996842_0996976_0997111_0997246_0997380_0997515_0997650_0997785_0997919_0998027_0998094_0998162_0998229_0998296_0998333_0998333_0998333_0998333_0998333_0998333_0998333_0998333_0998333_0998333_0998333_0998333_0998333_0998333_0998333_0998333_0998333_0998333_0998333_0998333_0998333_0998333_0998333_0998333_0998333_0998428_0998562_0998697_0998832_0998966_0999152_0999354_0999556_0999758_0999960_1000110_1000240_1000380_1000510_1000650_1000780_1000920_1001050_1001190_1001320_1008970_1017450_1025940_1034420_1042910_1054210_1065660_1077110_1088550_1100000,
  1_0000000_0000000_0000000_0000000_0000000_0500000_0558000_0616000_0674000_0732000_0790000_0814000_0838000_0862000_0886000_0910000_0918000_0926000_0934000_0942000_0950000_0950000_0950000_0950000_0950000_0950000_0960000_0970000_0980000_0990000_1000000_1000000_1000000_1000000_1000000_1000000_1000000_1000000_1000000_1000000_1000000_1000000_1000000_1000000_1000000_1000000_1000000_1000000_1000000_1000000_1000000_1000000_1000000_1000000_1000000_1000000_1000000_1000000_1000000_1000000_1000000_1000000_1000000_1000000_1000000_1000000_1000000_1000000_1000000_1000000_1000000_1000000_1000000_1000000_1000000_1000000_1000000_1000000_1000000_1000000_1000000_1000000_1000000_1000000_1000000_1000000_1000000_1000000_1000000_1000000_1000000_1000000_1000000_1000000_1000000_1000000_1000000_1000000_1000000_1000000_1000000,
  1_0000000_0000000_0000000_0000000_0000000_0000000_0578000_0626000_0674000_0722000_0770000_0818000_0836909_0855818_0874727_0893636_0912546_0924546_0929636_0934727_0939818_0944909_0950000_0951818_0953636_0955455_0957273_0959091_0963636_0970909_0978182_0985455_0992727_1000000_1000000_1000000_1000000_1000000_1000000_1000000_1000000_1000000_1000000_1000000_1000000_1000000_1000000_1000000_1000000_1000000_1000000_1000000_1000000_1000000_1000000_1000000_1000000_1000000_1000000_1000000_1000000_1000000_1000000_1000000_1000000_1000000_1000000_1000000_1000000_1000000_1000000_1000000_1000000_1000000_1000000_1000000_1000000_1000000_1000000_1000000_1000000_1000000_1000000_1000000_1000000_1000000_1000000_1000000_1000000_1000000_1000000_1000000_1000000_1000000_1000000_1000000_1000000_1000000_1000000_1000000_1000000_1000000,
  1_0000000_0000000_0000000_0000000_0000000_0000000_0608000_0647667_0687333_0727000_0766667_0806333_0846000_0860667_0875333_0890000_0904667_0919333_0934000_0936667_0939333_0942000_0944667_0947333_0950000_0953333_0956667_0960000_0963333_0966667_0970000_0975000_0980000_0985000_0990000_0995000_1000000_1000000_1000000_1000000_1000000_1000000_1000000_1000000_1000000_1000000_1000000_1000000_1000000_1000000_1000000_1000000_1000000_1000000_1000000_1000000_1000000_1000000_1000000_1000000_1000000_1000000_1000000_1000000_1000000_1000000_1000000_1000000_1000000_1000000_1000000_1000000_1000000_1000000_1000000_1000000_1000000_1000000_1000000_1000000_1000000_1000000_1000000_1000000_1000000_1000000_1000000_1000000_1000000_1000000_1000000_1000000_1000000_1000000_1000000_1000000_1000000_1000000_1000000_1000000_1000000_1000000_1000000,
  1_0000000_0000000_0000000_0000000_0000000_0000000_0000000_0678308_0710923_0743538_0776154_0808769_0841385_0874000_0885077_0896154_0907231_0918308_0929385_0940462_0946308_0946923_0947538_0948154_0948769_0949385_0950000_0954615_0959231_0963846_0968462_0973077_0977692_0981538_0984615_0987692_0990769_0993846_0996923_1000000_1000000_1000000_1000000_1000000_1000000_1000000_1000000_1000000_1000000_1000000_1000000_1000000_1000000_1000000_1000000_1000000_1000000_1000000_1000000_1000000_1000000_1000000_1000000_1000000_1000000_1000000_1000000_1000000_1000000_1000000_1000000_1000000_1000000_1000000_1000000_1000000_1000000_1000000_1000000_1000000_1000000_1000000_1000000_1000000_1000000_1000000_1000000_1000000_1000000_1000000_1000000_1000000_1000000_1000000_1000000_1000000_1000000_1000000_1000000_1000000_1000000_1000000_1000000_1000000,
  1_0000000_0000000_0000000_0000000_0000000_0000000_0000000_0716000_0742571_0769143_0795714_0822286_0848857_0875429_0902000_0910000_0918000_0926000_0934000_0942000_0950000_0958000_0956857_0955714_0954571_0953429_0952286_0951143_0950000_0955714_0961429_0967143_0972857_0978571_0984286_0990000_0991429_0992857_0994286_0995714_0997143_0998571_1000000_1000000_1000000_1000000_1000000_1000000_1000000_1000000_1000000_1000000_1000000_1000000_1000000_1000000_1000000_1000000_1000000_1000000_1000000_1000000_1000000_1000000_1000000_1000000_1000000_1000000_1000000_1000000_1000000_1000000_1000000_1000000_1000000_1000000_1000000_1000000_1000000_1000000_1000000_1000000_1000000_1000000_1000000_1000000_1000000_1000000_1000000_1000000_1000000_1000000_1000000_1000000_1000000_1000000_1000000_1000000_1000000_1000000_1000000_1000000_1000000_1000000_1000000,
  1_0000000_0000000_0000000_0000000_0000000_0000000_0000000_0000000_0780667_0802000_0823333_0844667_0866000_0887333_0908667_0930000_0935333_0940667_0946000_0951333_0956667_0962000_0967333_0968667_0966000_0963333_0960667_0958000_0955333_0952667_0950000_0956667_0963333_0970000_0976667_0983333_0990000_0996667_1000000_1000000_1000000_1000000_1000000_1000000_1000000_1000000_1000000_1000000_1000000_1000000_1000000_1000000_1000000_1000000_1000000_1000000_1000000_1000000_1000000_1000000_1000000_1000000_1000000_1000000_1000000_1000000_1000000_1000000_1000000_1000000_1000000_1000000_1000000_1000000_1000000_1000000_1000000_1000000_1000000_1000000_1000000_1000000_1000000_1000000_1000000_1000000_1000000_1000000_1000000_1000000_1000000_1000000_1000000_1000000_1000000_1000000_1000000_1000000_1000000_1000000_1000000_1000000_1000000_1000000_1000000_1000000,
  1_0000000_0000000_0000000_0000000_0000000_0000000_0000000_0000000_0790000_0808250_0826500_0844750_0863000_0881250_0899500_0917750_0936000_0940500_0945000_0949500_0954000_0958500_0963000_0967500_0972000_0970500_0969000_0967500_0966000_0964500_0963000_0961500_0960000_0965000_0970000_0975000_0980000_0985000_0990000_0995000_1000000_1000000_1000000_1000000_1000000_1000000_1000000_1000000_1000000_1000000_1000000_1000000_1000000_1000000_1000000_1000000_1000000_1000000_1000000_1000000_1000000_1000000_1000000_1000000_1000000_1000000_1000000_1000000_1000000_1000000_1000000_1000000_1000000_1000000_1000000_1000000_1000000_1000000_1000000_1000000_1000000_1000000_1000000_1000000_1000000_1000000_1000000_1000000_1000000_1000000_1000000_1000000_1000000_1000000_1000000_1000000_1000000_1000000_1000000_1000000_1000000_1000000_1000000_1000000_1000000_1000000_1000000,
  1_0000000_0000000_0000000_0000000_0000000_0000000_0000000_0000000_0000000_0817765_0833294_0848824_0864353_0879882_0895412_0910941_0926471_0942000_0945765_0949529_0953294_0957059_0960824_0964588_0968353_0972118_0973765_0973294_0972824_0972353_0971882_0971412_0970941_0970471_0970000_0973529_0977059_0980588_0984118_0987647_0991176_0994706_0998235_1000000_1000000_1000000_1000000_1000000_1000000_1000000_1000000_1000000_1000000_1000000_1000000_1000000_1000000_1000000_1000000_1000000_1000000_1000000_1000000_1000000_1000000_1000000_1000000_1000000_1000000_1000000_1000000_1000000_1000000_1000000_1000000_1000000_1000000_1000000_1000000_1000000_1000000_1000000_1000000_1000000_1000000_1000000_1000000_1000000_1000000_1000000_1000000_1000000_1000000_1000000_1000000_1000000_1000000_1000000_1000000_1000000_1000000_1000000_1000000_1000000_1000000_1000000_1000000_1000000,
  1_0000000_0000000_0000000_0000000_0000000_0000000_0000000_0000000_0000000_0830000_0843111_0856222_0869333_0882444_0895556_0908667_0921778_0934889_0948000_0951111_0954222_0957333_0960444_0963556_0966667_0969778_0972889_0976000_0976444_0976889_0977333_0977778_0978222_0978667_0979111_0979556_0980000_0982222_0984444_0986667_0988889_0991111_0993333_0995556_0997778_1000000_1000000_1000000_1000000_1000000_1000000_1000000_1000000_1000000_1000000_1000000_1000000_1000000_1000000_1000000_1000000_1000000_1000000_1000000_1000000_1000000_1000000_1000000_1000000_1000000_1000000_1000000_1000000_1000000_1000000_1000000_1000000_1000000_1000000_1000000_1000000_1000000_1000000_1000000_1000000_1000000_1000000_1000000_1000000_1000000_1000000_1000000_1000000_1000000_1000000_1000000_1000000_1000000_1000000_1000000_1000000_1000000_1000000_1000000_1000000_1000000_1000000_1000000_1000000,
  1_0000000_0000000_0000000_0000000_0000000_0000000_0000000_0000000_0000000_0000000_0855474_0866421_0877368_0888316_0899263_0910211_0921158_0932105_0943053_0954000_0956526_0959053_0961579_0964105_0966632_0969158_0971684_0974211_0976737_0978632_0979895_0981158_0982421_0983684_0984947_0986211_0987474_0988737_0990000_0991053_0992105_0993158_0994211_0995263_0996316_0997368_0998421_0999474_1000000_1000000_1000000_1000000_1000000_1000000_1000000_1000000_1000000_1000000_1000000_1000000_1000000_1000000_1000000_1000000_1000000_1000000_1000000_1000000_1000000_1000000_1000000_1000000_1000000_1000000_1000000_1000000_1000000_1000000_1000000_1000000_1000000_1000000_1000000_1000000_1000000_1000000_1000000_1000000_1000000_1000000_1000000_1000000_1000000_1000000_1000000_1000000_1000000_1000000_1000000_1000000_1000000_1000000_1000000_1000000_1000000_1000000_1000000_1000000_1000000_1000000,
  1_0000000_0000000_0000000_0000000_0000000_0000000_0000000_0000000_0000000_0000000_0870000_0879000_0888000_0897000_0906000_0915000_0924000_0933000_0942000_0951000_0960000_0962000_0964000_0966000_0968000_0970000_0972000_0974000_0976000_0978000_0980000_0982000_0984000_0986000_0988000_0990000_0992000_0994000_0996000_0998000_1000000_1000000_1000000_1000000_1000000_1000000_1000000_1000000_1000000_1000000_1000000_1000000_1000000_1000000_1000000_1000000_1000000_1000000_1000000_1000000_1000000_1000000_1000000_1000000_1000000_1000000_1000000_1000000_1000000_1000000_1000000_1000000_1000000_1000000_1000000_1000000_1000000_1000000_1000000_1000000_1000000_1000000_1000000_1000000_1000000_1000000_1000000_1000000_1000000_1000000_1000000_1000000_1000000_1000000_1000000_1000000_1000000_1000000_1000000_1000000_1000000_1000000_1000000_1000000_1000000_1000000_1000000_1000000_1000000_1000000_1000000,
  1_0000000_0000000_0000000_0000000_0000000_0000000_0000000_0000000_0000000_0000000_0000000_0884000_0892000_0900000_0908000_0916000_0924000_0932000_0940000_0948000_0956000_0964000_0965714_0967429_0969143_0970857_0972571_0974286_0976000_0977714_0979429_0981143_0982857_0984571_0986286_0988000_0989714_0991429_0993143_0994857_0996571_0998286_1000000_1000000_1000000_1000000_1000000_1000000_1000000_1000000_1000000_1000000_1000000_1000000_1000000_1000000_1000000_1000000_1000000_1000000_1000000_1000000_1000000_1000000_1000000_1000000_1000000_1000000_1000000_1000000_1000000_1000000_1000000_1000000_1000000_1000000_1000000_1000000_1000000_1000000_1000000_1000000_1000000_1000000_1000000_1000000_1000000_1000000_1000000_1000000_1000000_1000000_1000000_1000000_1000000_1000000_1000000_1000000_1000000_1000000_1000000_1000000_1000000_1000000_1000000_1000000_1000000_1000000_1000000_1000000_1000000_1000000,
  1_0000000_0000000_0000000_0000000_0000000_0000000_0000000_0000000_0000000_0000000_0000000_0890000_0897091_0904182_0911273_0918364_0925455_0932545_0939636_0946727_0953818_0960909_0968000_0969455_0970909_0972364_0973818_0975273_0976727_0978182_0979636_0981091_0982545_0984000_0985455_0986909_0988364_0989818_0991273_0992727_0994182_0995636_0997091_0998545_1000000_1000000_1000000_1000000_1000000_1000000_1000000_1000000_1000000_1000000_1000000_1000000_1000000_1000000_1000000_1000000_1000000_1000000_1000000_1000000_1000000_1000000_1000000_1000000_1000000_1000000_1000000_1000000_1000000_1000000_1000000_1000000_1000000_1000000_1000000_1000000_1000000_1000000_1000000_1000000_1000000_1000000_1000000_1000000_1000000_1000000_1000000_1000000_1000000_1000000_1000000_1000000_1000000_1000000_1000000_1000000_1000000_1000000_1000000_1000000_1000000_1000000_1000000_1000000_1000000_1000000_1000000_1000000_1000000,
  1_0000000_0000000_0000000_0000000_0000000_0000000_0000000_0000000_0000000_0000000_0000000_0000000_0903130_0909391_0915652_0921913_0928174_0934435_0940696_0946957_0953217_0959478_0965739_0972000_0973217_0974435_0975652_0976870_0978087_0979304_0980522_0981739_0982957_0984174_0985391_0986609_0987826_0989043_0990261_0991478_0992696_0993913_0995130_0996348_0997565_0998783_1000000_1000000_1000000_1000000_1000000_1000000_1000000_1000000_1000000_1000000_1000000_1000000_1000000_1000000_1000000_1000000_1000000_1000000_1000000_1000000_1000000_1000000_1000000_1000000_1000000_1000000_1000000_1000000_1000000_1000000_1000000_1000000_1000000_1000000_1000000_1000000_1000000_1000000_1000000_1000000_1000000_1000000_1000000_1000000_1000000_1000000_1000000_1000000_1000000_1000000_1000000_1000000_1000000_1000000_1000000_1000000_1000000_1000000_1000000_1000000_1000000_1000000_1000000_1000000_1000000_1000000_1000000_1000000,
  1_0000000_0000000_0000000_0000000_0000000_0000000_0000000_0000000_0000000_0000000_0000000_0000000_0910000_0915500_0921000_0926500_0932000_0937500_0943000_0948500_0954000_0959500_0965000_0970500_0976000_0977000_0978000_0979000_0980000_0981000_0982000_0983000_0984000_0985000_0986000_0987000_0988000_0989000_0990000_0991000_0992000_0993000_0994000_0995000_0996000_0997000_0998000_0999000_1000000_1000000_1000000_1000000_1000000_1000000_1000000_1000000_1000000_1000000_1000000_1000000_1000000_1000000_1000000_1000000_1000000_1000000_1000000_1000000_1000000_1000000_1000000_1000000_1000000_1000000_1000000_1000000_1000000_1000000_1000000_1000000_1000000_1000000_1000000_1000000_1000000_1000000_1000000_1000000_1000000_1000000_1000000_1000000_1000000_1000000_1000000_1000000_1000000_1000000_1000000_1000000_1000000_1000000_1000000_1000000_1000000_1000000_1000000_1000000_1000000_1000000_1000000_1000000_1000000_1000000_1000000,
  1_0000000_0000000_0000000_0000000_0000000_0000000_0000000_0000000_0000000_0000000_0000000_0000000_0000000_0922400_0927200_0932000_0936800_0941600_0946400_0951200_0956000_0960800_0965600_0970400_0975200_0980000_0980800_0981600_0982400_0983200_0984000_0984800_0985600_0986400_0987200_0988000_0988800_0989600_0990400_0991200_0992000_0992800_0993600_0994400_0995200_0996000_0996800_0997600_0998400_0999200_1000000_1000000_1000000_1000000_1000000_1000000_1000000_1000000_1000000_1000000_1000000_1000000_1000000_1000000_1000000_1000000_1000000_1000000_1000000_1000000_1000000_1000000_1000000_1000000_1000000_1000000_1000000_1000000_1000000_1000000_1000000_1000000_1000000_1000000_1000000_1000000_1000000_1000000_1000000_1000000_1000000_1000000_1000000_1000000_1000000_1000000_1000000_1000000_1000000_1000000_1000000_1000000_1000000_1000000_1000000_1000000_1000000_1000000_1000000_1000000_1000000_1000000_1000000_1000000_1000000_1000000,
  1_0000000_0000000_0000000_0000000_0000000_0000000_0000000_0000000_0000000_0000000_0000000_0000000_0000000_0930000_0934154_0938308_0942462_0946615_0950769_0954923_0959077_0963231_0967385_0971538_0975692_0979846_0984000_0984615_0985231_0985846_0986462_0987077_0987692_0988308_0988923_0989538_0990154_0990769_0991385_0992000_0992615_0993231_0993846_0994462_0995077_0995692_0996308_0996923_0997538_0998154_0998769_0999385_1000000_1000000_1000000_1000000_1000000_1000000_1000000_1000000_1000000_1000000_1000000_1000000_1000000_1000000_1000000_1000000_1000000_1000000_1000000_1000000_1000000_1000000_1000000_1000000_1000000_1000000_1000000_1000000_1000000_1000000_1000000_1000000_1000000_1000000_1000000_1000000_1000000_1000000_1000000_1000000_1000000_1000000_1000000_1000000_1000000_1000000_1000000_1000000_1000000_1000000_1000000_1000000_1000000_1000000_1000000_1000000_1000000_1000000_1000000_1000000_1000000_1000000_1000000_1000000_1000000,
  1_0000000_0000000_0000000_0000000_0000000_0000000_0000000_0000000_0000000_0000000_0000000_0000000_0000000_0000000_0941778_0945333_0948889_0952444_0956000_0959556_0963111_0966667_0970222_0973778_0977333_0980889_0984444_0988000_0988444_0988889_0989333_0989778_0990222_0990667_0991111_0991556_0992000_0992444_0992889_0993333_0993778_0994222_0994667_0995111_0995556_0996000_0996444_0996889_0997333_0997778_0998222_0998667_0999111_0999556_1000000_1000000_1000000_1000000_1000000_1000000_1000000_1000000_1000000_1000000_1000000_1000000_1000000_1000000_1000000_1000000_1000000_1000000_1000000_1000000_1000000_1000000_1000000_1000000_1000000_1000000_1000000_1000000_1000000_1000000_1000000_1000000_1000000_1000000_1000000_1000000_1000000_1000000_1000000_1000000_1000000_1000000_1000000_1000000_1000000_1000000_1000000_1000000_1000000_1000000_1000000_1000000_1000000_1000000_1000000_1000000_1000000_1000000_1000000_1000000_1000000_1000000_1000000_1000000,
  1_0000000_0000000_0000000_0000000_0000000_0000000_0000000_0000000_0000000_0000000_0000000_0000000_0000000_0000000_0950000_0953000_0956000_0959000_0962000_0965000_0968000_0971000_0974000_0977000_0980000_0983000_0986000_0989000_0992000_0992286_0992571_0992857_0993143_0993429_0993714_0994000_0994286_0994571_0994857_0995143_0995429_0995714_0996000_0996286_0996571_0996857_0997143_0997429_0997714_0998000_0998286_0998571_0998857_0999143_0999429_0999714_1000000_1000000_1000000_1000000_1000000_1000000_1000000_1000000_1000000_1000000_1000000_1000000_1000000_1000000_1000000_1000000_1000000_1000000_1000000_1000000_1000000_1000000_1000000_1000000_1000000_1000000_1000000_1000000_1000000_1000000_1000000_1000000_1000000_1000000_1000000_1000000_1000000_1000000_1000000_1000000_1000000_1000000_1000000_1000000_1000000_1000000_1000000_1000000_1000000_1000000_1000000_1000000_1000000_1000000_1000000_1000000_1000000_1000000_1000000_1000000_1000000_1000000_1000000,
  1_0000000_0000000_0000000_0000000_0000000_0000000_0000000_0000000_0000000_0000000_0000000_0000000_0000000_0000000_0000000_0961241_0963724_0966207_0968690_0971172_0973655_0976138_0978621_0981103_0983586_0986069_0988552_0991035_0993517_0996000_0996138_0996276_0996414_0996552_0996690_0996828_0996966_0997103_0997241_0997379_0997517_0997655_0997793_0997931_0998069_0998207_0998345_0998483_0998621_0998759_0998897_0999035_0999172_0999310_0999448_0999586_0999724_0999862_1000000_1000000_1000000_1000000_1000000_1000000_1000000_1000000_1000000_1000000_1000000_1000000_1000000_1000000_1000000_1000000_1000000_1000000_1000000_1000000_1000000_1000000_1000000_1000000_1000000_1000000_1000000_1000000_1000000_1000000_1000000_1000000_1000000_1000000_1000000_1000000_1000000_1000000_1000000_1000000_1000000_1000000_1000000_1000000_1000000_1000000_1000000_1000000_1000000_1000000_1000000_1000000_1000000_1000000_1000000_1000000_1000000_1000000_1000000_1000000_1000000_1000000,
  1_0000000_0000000_0000000_0000000_0000000_0000000_0000000_0000000_0000000_0000000_0000000_0000000_0000000_0000000_0000000_0970000_0972000_0974000_0976000_0978000_0980000_0982000_0984000_0986000_0988000_0990000_0992000_0994000_0996000_0998000_1000000_1000000_1000000_1000000_1000000_1000000_1000000_1000000_1000000_1000000_1000000_1000000_1000000_1000000_1000000_1000000_1000000_1000000_1000000_1000000_1000000_1000000_1000000_1000000_1000000_1000000_1000000_1000000_1000000_1000000_1000000_1000000_1000000_1000000_1000000_1000000_1000000_1000000_1000000_1000000_1000000_1000000_1000000_1000000_1000000_1000000_1000000_1000000_1000000_1000000_1000000_1000000_1000000_1000000_1000000_1000000_1000000_1000000_1000000_1000000_1000000_1000000_1000000_1000000_1000000_1000000_1000000_1000000_1000000_1000000_1000000_1000000_1000000_1000000_1000000_1000000_1000000_1000000_1000000_1000000_1000000_1000000_1000000_1000000_1000000_1000000_1000000_1000000_1000000_1000000_1000000,
  1_0000000_0000000_0000000_0000000_0000000_0000000_0000000_0000000_0000000_0000000_0000000_0000000_0000000_0000000_0000000_0970000_0972000_0974000_0976000_0978000_0980000_0982000_0984000_0986000_0988000_0990000_0992000_0994000_0996000_0998000_1000000_1000000_1000000_1000000_1000000_1000000_1000000_1000000_1000000_1000000_1000000_1000000_1000000_1000000_1000000_1000000_1000000_1000000_1000000_1000000_1000000_1000000_1000000_1000000_1000000_1000000_1000000_1000000_1000000_1000000_1000000_1000000_1000000_1000000_1000000_1000000_1000000_1000000_1000000_1000000_1000000_1000000_1000000_1000000_1000000_1000000_1000000_1000000_1000000_1000000_1000000_1000000_1000000_1000000_1000000_1000000_1000000_1000000_1000000_1000000_1000000_1000000_1000000_1000000_1000000_1000000_1000000_1000000_1000000_1000000_1000000_1000000_1000000_1000000_1000000_1000000_1000000_1000000_1000000_1000000_1000000_1000000_1000000_1000000_1000000_1000000_1000000_1000000_1000000_1000000_1000000_1000000,
  1_0000000_0000000_0000000_0000000_0000000_0000000_0000000_0000000_0000000_0000000_0000000_0000000_0000000_0000000_0000000_0970000_0972000_0974000_0976000_0978000_0980000_0982000_0984000_0986000_0988000_0990000_0992000_0994000_0996000_0998000_1000000_1000000_1000000_1000000_1000000_1000000_1000000_1000000_1000000_1000000_1000000_1000000_1000000_1000000_1000000_1000000_1000000_1000000_1000000_1000000_1000000_1000000_1000000_1000000_1000000_1000000_1000000_1000000_1000000_1000000_1000000_1000000_1000000_1000000_1000000_1000000_1000000_1000000_1000000_1000000_1000000_1000000_1000000_1000000_1000000_1000000_1000000_1000000_1000000_1000000_1000000_1000000_1000000_1000000_1000000_1000000_1000000_1000000_1000000_1000000_1000000_1000000_1000000_1000000_1000000_1000000_1000000_1000000_1000000_1000000_1000000_1000000_1000000_1000000_1000000_1000000_1000000_1000000_1000000_1000000_1000000_1000000_1000000_1000000_1000000_1000000_1000000_1000000_1000000_1000000_1000000_1000000_1000000,
  1_0000000_0000000_0000000_0000000_0000000_0000000_0000000_0000000_0000000_0000000_0000000_0000000_0000000_0000000_0000000_0970000_0972000_0974000_0976000_0978000_0980000_0982000_0984000_0986000_0988000_0990000_0992000_0994000_0996000_0998000_1000000_1000000_1000000_1000000_1000000_1000000_1000000_1000000_1000000_1000000_1000000_1000000_1000000_1000000_1000000_1000000_1000000_1000000_1000000_1000000_1000000_1000000_1000000_1000000_1000000_1000000_1000000_1000000_1000000_1000000_1000000_1000000_1000000_1000000_1000000_1000000_1000000_1000000_1000000_1000000_1000000_1000000_1000000_1000000_1000000_1000000_1000000_1000000_1000000_1000000_1000000_1000000_1000000_1000000_1000000_1000000_1000000_1000000_1000000_1000000_1000000_1000000_1000000_1000000_1000000_1000000_1000000_1000000_1000000_1000000_1000000_1000000_1000000_1000000_1000000_1000000_1000000_1000000_1000000_1000000_1000000_1000000_1000000_1000000_1000000_1000000_1000000_1000000_1000000_1000000_1000000_1000000_1000000_1000000,
  1_0000000_0000000_0000000_0000000_0000000_0000000_0000000_0000000_0000000_0000000_0000000_0000000_0000000_0000000_0000000_0970000_0972000_0974000_0976000_0978000_0980000_0982000_0984000_0986000_0988000_0990000_0992000_0994000_0996000_0998000_1000000_1000000_1000000_1000000_1000000_1000000_1000000_1000000_1000000_1000000_1000000_1000000_1000000_1000000_1000000_1000000_1000000_1000000_1000000_1000000_1000000_1000000_1000000_1000000_1000000_1000000_1000000_1000000_1000000_1000000_1000000_1000000_1000000_1000000_1000000_1000000_1000000_1000000_1000000_1000000_1000000_1000000_1000000_1000000_1000000_1000000_1000000_1000000_1000000_1000000_1000000_1000000_1000000_1000000_1000000_1000000_1000000_1000000_1000000_1000000_1000000_1000000_1000000_1000000_1000000_1000000_1000000_1000000_1000000_1000000_1000000_1000000_1000000_1000000_1000000_1000000_1000000_1000000_1000000_1000000_1000000_1000000_1000000_1000000_1000000_1000000_1000000_1000000_1000000_1000000_1000000_1000000_1000000_1000000_1000000,
  1_0000000_0000000_0000000_0000000_0000000_0000000_0000000_0000000_0000000_0000000_0000000_0000000_0000000_0000000_0000000_0970000_0972000_0974000_0976000_0978000_0980000_0982000_0984000_0986000_0988000_0990000_0992000_0994000_0996000_0998000_1000000_1000000_1000000_1000000_1000000_1000000_1000000_1000000_1000000_1000000_1000000_1000000_1000000_1000000_1000000_1000000_1000000_1000000_1000000_1000000_1000000_1000000_1000000_1000000_1000000_1000000_1000000_1000000_1000000_1000000_1000000_1000000_1000000_1000000_1000000_1000000_1000000_1000000_1000000_1000000_1000000_1000000_1000000_1000000_1000000_1000000_1000000_1000000_1000000_1000000_1000000_1000000_1000000_1000000_1000000_1000000_1000000_1000000_1000000_1000000_1000000_1000000_1000000_1000000_1000000_1000000_1000000_1000000_1000000_1000000_1000000_1000000_1000000_1000000_1000000_1000000_1000000_1000000_1000000_1000000_1000000_1000000_1000000_1000000_1000000_1000000_1000000_1000000_1000000_1000000_1000000_1000000_1000000_1000000_1000000_1000000,
  1_0000000_0000000_0000000_0000000_0000000_0000000_0000000_0000000_0000000_0000000_0000000_0000000_0000000_0000000_0000000_0970000_0972000_0974000_0976000_0978000_0980000_0982000_0984000_0986000_0988000_0990000_0992000_0994000_0996000_0998000_1000000_1000000_1000000_1000000_1000000_1000000_1000000_1000000_1000000_1000000_1000000_1000000_1000000_1000000_1000000_1000000_1000000_1000000_1000000_1000000_1000000_1000000_1000000_1000000_1000000_1000000_1000000_1000000_1000000_1000000_1000000_1000000_1000000_1000000_1000000_1000000_1000000_1000000_1000000_1000000_1000000_1000000_1000000_1000000_1000000_1000000_1000000_1000000_1000000_1000000_1000000_1000000_1000000_1000000_1000000_1000000_1000000_1000000_1000000_1000000_1000000_1000000_1000000_1000000_1000000_1000000_1000000_1000000_1000000_1000000_1000000_1000000_1000000_1000000_1000000_1000000_1000000_1000000_1000000_1000000_1000000_1000000_1000000_1000000_1000000_1000000_1000000_1000000_1000000_1000000_1000000_1000000_1000000_1000000_1000000_1000000_1000000,
  1_0000000_0000000_0000000_0000000_0000000_0000000_0000000_0000000_0000000_0000000_0000000_0000000_0000000_0000000_0000000_0970000_0972000_0974000_0976000_0978000_0980000_0982000_0984000_0986000_0988000_0990000_0992000_0994000_0996000_0998000_1000000_1000000_1000000_1000000_1000000_1000000_1000000_1000000_1000000_1000000_1000000_1000000_1000000_1000000_1000000_1000000_1000000_1000000_1000000_1000000_1000000_1000000_1000000_1000000_1000000_1000000_1000000_1000000_1000000_1000000_1000000_1000000_1000000_1000000_1000000_1000000_1000000_1000000_1000000_1000000_1000000_1000000_1000000_1000000_1000000_1000000_1000000_1000000_1000000_1000000_1000000_1000000_1000000_1000000_1000000_1000000_1000000_1000000_1000000_1000000_1000000_1000000_1000000_1000000_1000000_1000000_1000000_1000000_1000000_1000000_1000000_1000000_1000000_1000000_1000000_1000000_1000000_1000000_1000000_1000000_1000000_1000000_1000000_1000000_1000000_1000000_1000000_1000000_1000000_1000000_1000000_1000000_1000000_1000000_1000000_1000000_1000000_1000000,
  1_0000000_0000000_0000000_0000000_0000000_0000000_0000000_0000000_0000000_0000000_0000000_0000000_0000000_0000000_0000000_0970000_0972000_0974000_0976000_0978000_0980000_0982000_0984000_0986000_0988000_0990000_0992000_0994000_0996000_0998000_1000000_1000000_1000000_1000000_1000000_1000000_1000000_1000000_1000000_1000000_1000000_1000000_1000000_1000000_1000000_1000000_1000000_1000000_1000000_1000000_1000000_1000000_1000000_1000000_1000000_1000000_1000000_1000000_1000000_1000000_1000000_1000000_1000000_1000000_1000000_1000000_1000000_1000000_1000000_1000000_1000000_1000000_1000000_1000000_1000000_1000000_1000000_1000000_1000000_1000000_1000000_1000000_1000000_1000000_1000000_1000000_1000000_1000000_1000000_1000000_1000000_1000000_1000000_1000000_1000000_1000000_1000000_1000000_1000000_1000000_1000000_1000000_1000000_1000000_1000000_1000000_1000000_1000000_1000000_1000000_1000000_1000000_1000000_1000000_1000000_1000000_1000000_1000000_1000000_1000000_1000000_1000000_1000000_1000000_1000000_1000000_1000000_1000000_1000000,
  1_0000000_0000000_0000000_0000000_0000000_0000000_0000000_0000000_0000000_0000000_0000000_0000000_0000000_0000000_0000000_0970000_0972000_0974000_0976000_0978000_0980000_0982000_0984000_0986000_0988000_0990000_0992000_0994000_0996000_0998000_1000000_1000000_1000000_1000000_1000000_1000000_1000000_1000000_1000000_1000000_1000000_1000000_1000000_1000000_1000000_1000000_1000000_1000000_1000000_1000000_1000000_1000000_1000000_1000000_1000000_1000000_1000000_1000000_1000000_1000000_1000000_1000000_1000000_1000000_1000000_1000000_1000000_1000000_1000000_1000000_1000000_1000000_1000000_1000000_1000000_1000000_1000000_1000000_1000000_1000000_1000000_1000000_1000000_1000000_1000000_1000000_1000000_1000000_1000000_1000000_1000000_1000000_1000000_1000000_1000000_1000000_1000000_1000000_1000000_1000000_1000000_1000000_1000000_1000000_1000000_1000000_1000000_1000000_1000000_1000000_1000000_1000000_1000000_1000000_1000000_1000000_1000000_1000000_1000000_1000000_1000000_1000000_1000000_1000000_1000000_1000000_1000000_1000000_1000000_1000000,
  1_0000000_0000000_0000000_0000000_0000000_0000000_0000000_0000000_0000000_0000000_0000000_0000000_0000000_0000000_0000000_0970000_0972000_0974000_0976000_0978000_0980000_0982000_0984000_0986000_0988000_0990000_0992000_0994000_0996000_0998000_1000000_1000000_1000000_1000000_1000000_1000000_1000000_1000000_1000000_1000000_1000000_1000000_1000000_1000000_1000000_1000000_1000000_1000000_1000000_1000000_1000000_1000000_1000000_1000000_1000000_1000000_1000000_1000000_1000000_1000000_1000000_1000000_1000000_1000000_1000000_1000000_1000000_1000000_1000000_1000000_1000000_1000000_1000000_1000000_1000000_1000000_1000000_1000000_1000000_1000000_1000000_1000000_1000000_1000000_1000000_1000000_1000000_1000000_1000000_1000000_1000000_1000000_1000000_1000000_1000000_1000000_1000000_1000000_1000000_1000000_1000000_1000000_1000000_1000000_1000000_1000000_1000000_1000000_1000000_1000000_1000000_1000000_1000000_1000000_1000000_1000000_1000000_1000000_1000000_1000000_1000000_1000000_1000000_1000000_1000000_1000000_1000000_1000000_1000000_1000000_1000000,
  1_0000000_0000000_0000000_0000000_0000000_0000000_0000000_0000000_0000000_0000000_0000000_0000000_0000000_0000000_0000000_0970000_0972000_0974000_0976000_0978000_0980000_0982000_0984000_0986000_0988000_0990000_0992000_0994000_0996000_0998000_1000000_1000000_1000000_1000000_1000000_1000000_1000000_1000000_1000000_1000000_1000000_1000000_1000000_1000000_1000000_1000000_1000000_1000000_1000000_1000000_1000000_1000000_1000000_1000000_1000000_1000000_1000000_1000000_1000000_1000000_1000000_1000000_1000000_1000000_1000000_1000000_1000000_1000000_1000000_1000000_1000000_1000000_1000000_1000000_1000000_1000000_1000000_1000000_1000000_1000000_1000000_1000000_1000000_1000000_1000000_1000000_1000000_1000000_1000000_1000000_1000000_1000000_1000000_1000000_1000000_1000000_1000000_1000000_1000000_1000000_1000000_1000000_1000000_1000000_1000000_1000000_1000000_1000000_1000000_1000000_1000000_1000000_1000000_1000000_1000000_1000000_1000000_1000000_1000000_1000000_1000000_1000000_1000000_1000000_1000000_1000000_1000000_1000000_1000000_1000000_1000000_1000000,
  1_0000000_0000000_0000000_0000000_0000000_0000000_0000000_0000000_0000000_0000000_0000000_0000000_0000000_0000000_0000000_0970000_0972000_0974000_0976000_0978000_0980000_0982000_0984000_0986000_0988000_0990000_0992000_0994000_0996000_0998000_1000000_1000000_1000000_1000000_1000000_1000000_1000000_1000000_1000000_1000000_1000000_1000000_1000000_1000000_1000000_1000000_1000000_1000000_1000000_1000000_1000000_1000000_1000000_1000000_1000000_1000000_1000000_1000000_1000000_1000000_1000000_1000000_1000000_1000000_1000000_1000000_1000000_1000000_1000000_1000000_1000000_1000000_1000000_1000000_1000000_1000000_1000000_1000000_1000000_1000000_1000000_1000000_1000000_1000000_1000000_1000000_1000000_1000000_1000000_1000000_1000000_1000000_1000000_1000000_1000000_1000000_1000000_1000000_1000000_1000000_1000000_1000000_1000000_1000000_1000000_1000000_1000000_1000000_1000000_1000000_1000000_1000000_1000000_1000000_1000000_1000000_1000000_1000000_1000000_1000000_1000000_1000000_1000000_1000000_1000000_1000000_1000000_1000000_1000000_1000000_1000000_1000000_1000000,
  1_0000000_0000000_0000000_0000000_0000000_0000000_0000000_0000000_0000000_0000000_0000000_0000000_0000000_0000000_0000000_0970000_0972000_0974000_0976000_0978000_0980000_0982000_0984000_0986000_0988000_0990000_0992000_0994000_0996000_0998000_1000000_1000000_1000000_1000000_1000000_1000000_1000000_1000000_1000000_1000000_1000000_1000000_1000000_1000000_1000000_1000000_1000000_1000000_1000000_1000000_1000000_1000000_1000000_1000000_1000000_1000000_1000000_1000000_1000000_1000000_1000000_1000000_1000000_1000000_1000000_1000000_1000000_1000000_1000000_1000000_1000000_1000000_1000000_1000000_1000000_1000000_1000000_1000000_1000000_1000000_1000000_1000000_1000000_1000000_1000000_1000000_1000000_1000000_1000000_1000000_1000000_1000000_1000000_1000000_1000000_1000000_1000000_1000000_1000000_1000000_1000000_1000000_1000000_1000000_1000000_1000000_1000000_1000000_1000000_1000000_1000000_1000000_1000000_1000000_1000000_1000000_1000000_1000000_1000000_1000000_1000000_1000000_1000000_1000000_1000000_1000000_1000000_1000000_1000000_1000000_1000000_1000000_1000000_1000000,
  1_0000000_0000000_0000000_0000000_0000000_0000000_0000000_0000000_0000000_0000000_0000000_0000000_0000000_0000000_0000000_0970000_0972000_0974000_0976000_0978000_0980000_0982000_0984000_0986000_0988000_0990000_0992000_0994000_0996000_0998000_1000000_1000000_1000000_1000000_1000000_1000000_1000000_1000000_1000000_1000000_1000000_1000000_1000000_1000000_1000000_1000000_1000000_1000000_1000000_1000000_1000000_1000000_1000000_1000000_1000000_1000000_1000000_1000000_1000000_1000000_1000000_1000000_1000000_1000000_1000000_1000000_1000000_1000000_1000000_1000000_1000000_1000000_1000000_1000000_1000000_1000000_1000000_1000000_1000000_1000000_1000000_1000000_1000000_1000000_1000000_1000000_1000000_1000000_1000000_1000000_1000000_1000000_1000000_1000000_1000000_1000000_1000000_1000000_1000000_1000000_1000000_1000000_1000000_1000000_1000000_1000000_1000000_1000000_1000000_1000000_1000000_1000000_1000000_1000000_1000000_1000000_1000000_1000000_1000000_1000000_1000000_1000000_1000000_1000000_1000000_1000000_1000000_1000000_1000000_1000000_1000000_1000000_1000000_1000000_1000000,
  1_0000000_0000000_0000000_0000000_0000000_0000000_0000000_0000000_0000000_0000000_0000000_0000000_0000000_0000000_0000000_0970000_0972000_0974000_0976000_0978000_0980000_0982000_0984000_0986000_0988000_0990000_0992000_0994000_0996000_0998000_1000000_1000000_1000000_1000000_1000000_1000000_1000000_1000000_1000000_1000000_1000000_1000000_1000000_1000000_1000000_1000000_1000000_1000000_1000000_1000000_1000000_1000000_1000000_1000000_1000000_1000000_1000000_1000000_1000000_1000000_1000000_1000000_1000000_1000000_1000000_1000000_1000000_1000000_1000000_1000000_1000000_1000000_1000000_1000000_1000000_1000000_1000000_1000000_1000000_1000000_1000000_1000000_1000000_1000000_1000000_1000000_1000000_1000000_1000000_1000000_1000000_1000000_1000000_1000000_1000000_1000000_1000000_1000000_1000000_1000000_1000000_1000000_1000000_1000000_1000000_1000000_1000000_1000000_1000000_1000000_1000000_1000000_1000000_1000000_1000000_1000000_1000000_1000000_1000000_1000000_1000000_1000000_1000000_1000000_1000000_1000000_1000000_1000000_1000000_1000000_1000000_1000000_1000000_1000000_1000000_1000000,
  1_0000000_0000000_0000000_0000000_0000000_0000000_0000000_0000000_0000000_0000000_0000000_0000000_0000000_0000000_0000000_0970000_0972000_0974000_0976000_0978000_0980000_0982000_0984000_0986000_0988000_0990000_0992000_0994000_0996000_0998000_1000000_1000000_1000000_1000000_1000000_1000000_1000000_1000000_1000000_1000000_1000000_1000000_1000000_1000000_1000000_1000000_1000000_1000000_1000000_1000000_1000000_1000000_1000000_1000000_1000000_1000000_1000000_1000000_1000000_1000000_1000000_1000000_1000000_1000000_1000000_1000000_1000000_1000000_1000000_1000000_1000000_1000000_1000000_1000000_1000000_1000000_1000000_1000000_1000000_1000000_1000000_1000000_1000000_1000000_1000000_1000000_1000000_1000000_1000000_1000000_1000000_1000000_1000000_1000000_1000000_1000000_1000000_1000000_1000000_1000000_1000000_1000000_1000000_1000000_1000000_1000000_1000000_1000000_1000000_1000000_1000000_1000000_1000000_1000000_1000000_1000000_1000000_1000000_1000000_1000000_1000000_1000000_1000000_1000000_1000000_1000000_1000000_1000000_1000000_1000000_1000000_1000000_1000000_1000000_1000000_1000000_1000000,
  1_0000000_0000000_0000000_0000000_0000000_0000000_0000000_0000000_0000000_0000000_0000000_0000000_0000000_0000000_0000000_0970000_0972000_0974000_0976000_0978000_0980000_0982000_0984000_0986000_0988000_0990000_0992000_0994000_0996000_0998000_1000000_1000000_1000000_1000000_1000000_1000000_1000000_1000000_1000000_1000000_1000000_1000000_1000000_1000000_1000000_1000000_1000000_1000000_1000000_1000000_1000000_1000000_1000000_1000000_1000000_1000000_1000000_1000000_1000000_1000000_1000000_1000000_1000000_1000000_1000000_1000000_1000000_1000000_1000000_1000000_1000000_1000000_1000000_1000000_1000000_1000000_1000000_1000000_1000000_1000000_1000000_1000000_1000000_1000000_1000000_1000000_1000000_1000000_1000000_1000000_1000000_1000000_1000000_1000000_1000000_1000000_1000000_1000000_1000000_1000000_1000000_1000000_1000000_1000000_1000000_1000000_1000000_1000000_1000000_1000000_1000000_1000000_1000000_1000000_1000000_1000000_1000000_1000000_1000000_1000000_1000000_1000000_1000000_1000000_1000000_1000000_1000000_1000000_1000000_1000000_1000000_1000000_1000000_1000000_1000000_1000000_1000000_1000000,
  1_0000000_0000000_0000000_0000000_0000000_0000000_0000000_0000000_0000000_0000000_0000000_0000000_0000000_0000000_0000000_0970000_0972000_0974000_0976000_0978000_0980000_0982000_0984000_0986000_0988000_0990000_0992000_0994000_0996000_0998000_1000000_1000000_1000000_1000000_1000000_1000000_1000000_1000000_1000000_1000000_1000000_1000000_1000000_1000000_1000000_1000000_1000000_1000000_1000000_1000000_1000000_1000000_1000000_1000000_1000000_1000000_1000000_1000000_1000000_1000000_1000000_1000000_1000000_1000000_1000000_1000000_1000000_1000000_1000000_1000000_1000000_1000000_1000000_1000000_1000000_1000000_1000000_1000000_1000000_1000000_1000000_1000000_1000000_1000000_1000000_1000000_1000000_1000000_1000000_1000000_1000000_1000000_1000000_1000000_1000000_1000000_1000000_1000000_1000000_1000000_1000000_1000000_1000000_1000000_1000000_1000000_1000000_1000000_1000000_1000000_1000000_1000000_1000000_1000000_1000000_1000000_1000000_1000000_1000000_1000000_1000000_1000000_1000000_1000000_1000000_1000000_1000000_1000000_1000000_1000000_1000000_1000000_1000000_1000000_1000000_1000000_1000000_1000000_1000000,
  1_0000000_0000000_0000000_0000000_0000000_0000000_0000000_0000000_0000000_0000000_0000000_0000000_0000000_0000000_0000000_0970000_0972000_0974000_0976000_0978000_0980000_0982000_0984000_0986000_0988000_0990000_0992000_0994000_0996000_0998000_1000000_1000000_1000000_1000000_1000000_1000000_1000000_1000000_1000000_1000000_1000000_1000000_1000000_1000000_1000000_1000000_1000000_1000000_1000000_1000000_1000000_1000000_1000000_1000000_1000000_1000000_1000000_1000000_1000000_1000000_1000000_1000000_1000000_1000000_1000000_1000000_1000000_1000000_1000000_1000000_1000000_1000000_1000000_1000000_1000000_1000000_1000000_1000000_1000000_1000000_1000000_1000000_1000000_1000000_1000000_1000000_1000000_1000000_1000000_1000000_1000000_1000000_1000000_1000000_1000000_1000000_1000000_1000000_1000000_1000000_1000000_1000000_1000000_1000000_1000000_1000000_1000000_1000000_1000000_1000000_1000000_1000000_1000000_1000000_1000000_1000000_1000000_1000000_1000000_1000000_1000000_1000000_1000000_1000000_1000000_1000000_1000000_1000000_1000000_1000000_1000000_1000000_1000000_1000000_1000000_1000000_1000000_1000000_1000000_1000000,
  1_0000000_0000000_0000000_0000000_0000000_0000000_0000000_0000000_0000000_0000000_0000000_0000000_0000000_0000000_0000000_0970000_0972000_0974000_0976000_0978000_0980000_0982000_0984000_0986000_0988000_0990000_0992000_0994000_0996000_0998000_1000000_1000000_1000000_1000000_1000000_1000000_1000000_1000000_1000000_1000000_1000000_1000000_1000000_1000000_1000000_1000000_1000000_1000000_1000000_1000000_1000000_1000000_1000000_1000000_1000000_1000000_1000000_1000000_1000000_1000000_1000000_1000000_1000000_1000000_1000000_1000000_1000000_1000000_1000000_1000000_1000000_1000000_1000000_1000000_1000000_1000000_1000000_1000000_1000000_1000000_1000000_1000000_1000000_1000000_1000000_1000000_1000000_1000000_1000000_1000000_1000000_1000000_1000000_1000000_1000000_1000000_1000000_1000000_1000000_1000000_1000000_1000000_1000000_1000000_1000000_1000000_1000000_1000000_1000000_1000000_1000000_1000000_1000000_1000000_1000000_1000000_1000000_1000000_1000000_1000000_1000000_1000000_1000000_1000000_1000000_1000000_1000000_1000000_1000000_1000000_1000000_1000000_1000000_1000000_1000000_1000000_1000000_1000000_1000000_1000000_1000000,
  1_0000000_0000000_0000000_0000000_0000000_0000000_0000000_0000000_0000000_0000000_0000000_0000000_0000000_0000000_0000000_0970000_0972000_0974000_0976000_0978000_0980000_0982000_0984000_0986000_0988000_0990000_0992000_0994000_0996000_0998000_1000000_1000000_1000000_1000000_1000000_1000000_1000000_1000000_1000000_1000000_1000000_1000000_1000000_1000000_1000000_1000000_1000000_1000000_1000000_1000000_1000000_1000000_1000000_1000000_1000000_1000000_1000000_1000000_1000000_1000000_1000000_1000000_1000000_1000000_1000000_1000000_1000000_1000000_1000000_1000000_1000000_1000000_1000000_1000000_1000000_1000000_1000000_1000000_1000000_1000000_1000000_1000000_1000000_1000000_1000000_1000000_1000000_1000000_1000000_1000000_1000000_1000000_1000000_1000000_1000000_1000000_1000000_1000000_1000000_1000000_1000000_1000000_1000000_1000000_1000000_1000000_1000000_1000000_1000000_1000000_1000000_1000000_1000000_1000000_1000000_1000000_1000000_1000000_1000000_1000000_1000000_1000000_1000000_1000000_1000000_1000000_1000000_1000000_1000000_1000000_1000000_1000000_1000000_1000000_1000000_1000000_1000000_1000000_1000000_1000000_1000000_1000000,
  1_0000000_0000000_0000000_0000000_0000000_0000000_0000000_0000000_0000000_0000000_0000000_0000000_0000000_0000000_0000000_0970000_0972000_0974000_0976000_0978000_0980000_0982000_0984000_0986000_0988000_0990000_0992000_0994000_0996000_0998000_1000000_1000000_1000000_1000000_1000000_1000000_1000000_1000000_1000000_1000000_1000000_1000000_1000000_1000000_1000000_1000000_1000000_1000000_1000000_1000000_1000000_1000000_1000000_1000000_1000000_1000000_1000000_1000000_1000000_1000000_1000000_1000000_1000000_1000000_1000000_1000000_1000000_1000000_1000000_1000000_1000000_1000000_1000000_1000000_1000000_1000000_1000000_1000000_1000000_1000000_1000000_1000000_1000000_1000000_1000000_1000000_1000000_1000000_1000000_1000000_1000000_1000000_1000000_1000000_1000000_1000000_1000000_1000000_1000000_1000000_1000000_1000000_1000000_1000000_1000000_1000000_1000000_1000000_1000000_1000000_1000000_1000000_1000000_1000000_1000000_1000000_1000000_1000000_1000000_1000000_1000000_1000000_1000000_1000000_1000000_1000000_1000000_1000000_1000000_1000000_1000000_1000000_1000000_1000000_1000000_1000000_1000000_1000000_1000000_1000000_1000000_1000000_1000000,
  1_0000000_0000000_0000000_0000000_0000000_0000000_0000000_0000000_0000000_0000000_0000000_0000000_0000000_0000000_0000000_0970000_0972000_0974000_0976000_0978000_0980000_0982000_0984000_0986000_0988000_0990000_0992000_0994000_0996000_0998000_1000000_1000000_1000000_1000000_1000000_1000000_1000000_1000000_1000000_1000000_1000000_1000000_1000000_1000000_1000000_1000000_1000000_1000000_1000000_1000000_1000000_1000000_1000000_1000000_1000000_1000000_1000000_1000000_1000000_1000000_1000000_1000000_1000000_1000000_1000000_1000000_1000000_1000000_1000000_1000000_1000000_1000000_1000000_1000000_1000000_1000000_1000000_1000000_1000000_1000000_1000000_1000000_1000000_1000000_1000000_1000000_1000000_1000000_1000000_1000000_1000000_1000000_1000000_1000000_1000000_1000000_1000000_1000000_1000000_1000000_1000000_1000000_1000000_1000000_1000000_1000000_1000000_1000000_1000000_1000000_1000000_1000000_1000000_1000000_1000000_1000000_1000000_1000000_1000000_1000000_1000000_1000000_1000000_1000000_1000000_1000000_1000000_1000000_1000000_1000000_1000000_1000000_1000000_1000000_1000000_1000000_1000000_1000000_1000000_1000000_1000000_1000000_1000000_1000000,
  1_0000000_0000000_0000000_0000000_0000000_0000000_0000000_0000000_0000000_0000000_0000000_0000000_0000000_0000000_0000000_0970000_0972000_0974000_0976000_0978000_0980000_0982000_0984000_0986000_0988000_0990000_0992000_0994000_0996000_0998000_1000000_1000000_1000000_1000000_1000000_1000000_1000000_1000000_1000000_1000000_1000000_1000000_1000000_1000000_1000000_1000000_1000000_1000000_1000000_1000000_1000000_1000000_1000000_1000000_1000000_1000000_1000000_1000000_1000000_1000000_1000000_1000000_1000000_1000000_1000000_1000000_1000000_1000000_1000000_1000000_1000000_1000000_1000000_1000000_1000000_1000000_1000000_1000000_1000000_1000000_1000000_1000000_1000000_1000000_1000000_1000000_1000000_1000000_1000000_1000000_1000000_1000000_1000000_1000000_1000000_1000000_1000000_1000000_1000000_1000000_1000000_1000000_1000000_1000000_1000000_1000000_1000000_1000000_1000000_1000000_1000000_1000000_1000000_1000000_1000000_1000000_1000000_1000000_1000000_1000000_1000000_1000000_1000000_1000000_1000000_1000000_1000000_1000000_1000000_1000000_1000000_1000000_1000000_1000000_1000000_1000000_1000000_1000000_1000000_1000000_1000000_1000000_1000000_1000000_1000000,
  1_0000000_0000000_0000000_0000000_0000000_0000000_0000000_0000000_0000000_0000000_0000000_0000000_0000000_0000000_0000000_0970000_0972000_0974000_0976000_0978000_0980000_0982000_0984000_0986000_0988000_0990000_0992000_0994000_0996000_0998000_1000000_1000000_1000000_1000000_1000000_1000000_1000000_1000000_1000000_1000000_1000000_1000000_1000000_1000000_1000000_1000000_1000000_1000000_1000000_1000000_1000000_1000000_1000000_1000000_1000000_1000000_1000000_1000000_1000000_1000000_1000000_1000000_1000000_1000000_1000000_1000000_1000000_1000000_1000000_1000000_1000000_1000000_1000000_1000000_1000000_1000000_1000000_1000000_1000000_1000000_1000000_1000000_1000000_1000000_1000000_1000000_1000000_1000000_1000000_1000000_1000000_1000000_1000000_1000000_1000000_1000000_1000000_1000000_1000000_1000000_1000000_1000000_1000000_1000000_1000000_1000000_1000000_1000000_1000000_1000000_1000000_1000000_1000000_1000000_1000000_1000000_1000000_1000000_1000000_1000000_1000000_1000000_1000000_1000000_1000000_1000000_1000000_1000000_1000000_1000000_1000000_1000000_1000000_1000000_1000000_1000000_1000000_1000000_1000000_1000000_1000000_1000000_1000000_1000000_1000000_1000000,
  1_0000000_0000000_0000000_0000000_0000000_0000000_0000000_0000000_0000000_0000000_0000000_0000000_0000000_0000000_0000000_0970000_0972000_0974000_0976000_0978000_0980000_0982000_0984000_0986000_0988000_0990000_0992000_0994000_0996000_0998000_1000000_1000000_1000000_1000000_1000000_1000000_1000000_1000000_1000000_1000000_1000000_1000000_1000000_1000000_1000000_1000000_1000000_1000000_1000000_1000000_1000000_1000000_1000000_1000000_1000000_1000000_1000000_1000000_1000000_1000000_1000000_1000000_1000000_1000000_1000000_1000000_1000000_1000000_1000000_1000000_1000000_1000000_1000000_1000000_1000000_1000000_1000000_1000000_1000000_1000000_1000000_1000000_1000000_1000000_1000000_1000000_1000000_1000000_1000000_1000000_1000000_1000000_1000000_1000000_1000000_1000000_1000000_1000000_1000000_1000000_1000000_1000000_1000000_1000000_1000000_1000000_1000000_1000000_1000000_1000000_1000000_1000000_1000000_1000000_1000000_1000000_1000000_1000000_1000000_1000000_1000000_1000000_1000000_1000000_1000000_1000000_1000000_1000000_1000000_1000000_1000000_1000000_1000000_1000000_1000000_1000000_1000000_1000000_1000000_1000000_1000000_1000000_1000000_1000000_1000000_1000000_1000000,
  1_0000000_0000000_0000000_0000000_0000000_0000000_0000000_0000000_0000000_0000000_0000000_0000000_0000000_0000000_0000000_0970000_0972000_0974000_0976000_0978000_0980000_0982000_0984000_0986000_0988000_0990000_0992000_0994000_0996000_0998000_1000000_1000000_1000000_1000000_1000000_1000000_1000000_1000000_1000000_1000000_1000000_1000000_1000000_1000000_1000000_1000000_1000000_1000000_1000000_1000000_1000000_1000000_1000000_1000000_1000000_1000000_1000000_1000000_1000000_1000000_1000000_1000000_1000000_1000000_1000000_1000000_1000000_1000000_1000000_1000000_1000000_1000000_1000000_1000000_1000000_1000000_1000000_1000000_1000000_1000000_1000000_1000000_1000000_1000000_1000000_1000000_1000000_1000000_1000000_1000000_1000000_1000000_1000000_1000000_1000000_1000000_1000000_1000000_1000000_1000000_1000000_1000000_1000000_1000000_1000000_1000000_1000000_1000000_1000000_1000000_1000000_1000000_1000000_1000000_1000000_1000000_1000000_1000000_1000000_1000000_1000000_1000000_1000000_1000000_1000000_1000000_1000000_1000000_1000000_1000000_1000000_1000000_1000000_1000000_1000000_1000000_1000000_1000000_1000000_1000000_1000000_1000000_1000000_1000000_1000000_1000000_1000000_1000000,
  1_0000000_0000000_0000000_0000000_0000000_0000000_0000000_0000000_0000000_0000000_0000000_0000000_0000000_0000000_0000000_0970000_0972000_0974000_0976000_0978000_0980000_0982000_0984000_0986000_0988000_0990000_0992000_0994000_0996000_0998000_1000000_1000000_1000000_1000000_1000000_1000000_1000000_1000000_1000000_1000000_1000000_1000000_1000000_1000000_1000000_1000000_1000000_1000000_1000000_1000000_1000000_1000000_1000000_1000000_1000000_1000000_1000000_1000000_1000000_1000000_1000000_1000000_1000000_1000000_1000000_1000000_1000000_1000000_1000000_1000000_1000000_1000000_1000000_1000000_1000000_1000000_1000000_1000000_1000000_1000000_1000000_1000000_1000000_1000000_1000000_1000000_1000000_1000000_1000000_1000000_1000000_1000000_1000000_1000000_1000000_1000000_1000000_1000000_1000000_1000000_1000000_1000000_1000000_1000000_1000000_1000000_1000000_1000000_1000000_1000000_1000000_1000000_1000000_1000000_1000000_1000000_1000000_1000000_1000000_1000000_1000000_1000000_1000000_1000000_1000000_1000000_1000000_1000000_1000000_1000000_1000000_1000000_1000000_1000000_1000000_1000000_1000000_1000000_1000000_1000000_1000000_1000000_1000000_1000000_1000000_1000000_1000000_1000000_1000000,
  1_0000000_0000000_0000000_0000000_0000000_0000000_0000000_0000000_0000000_0000000_0000000_0000000_0000000_0000000_0000000_0970000_0972000_0974000_0976000_0978000_0980000_0982000_0984000_0986000_0988000_0990000_0992000_0994000_0996000_0998000_1000000_1000000_1000000_1000000_1000000_1000000_1000000_1000000_1000000_1000000_1000000_1000000_1000000_1000000_1000000_1000000_1000000_1000000_1000000_1000000_1000000_1000000_1000000_1000000_1000000_1000000_1000000_1000000_1000000_1000000_1000000_1000000_1000000_1000000_1000000_1000000_1000000_1000000_1000000_1000000_1000000_1000000_1000000_1000000_1000000_1000000_1000000_1000000_1000000_1000000_1000000_1000000_1000000_1000000_1000000_1000000_1000000_1000000_1000000_1000000_1000000_1000000_1000000_1000000_1000000_1000000_1000000_1000000_1000000_1000000_1000000_1000000_1000000_1000000_1000000_1000000_1000000_1000000_1000000_1000000_1000000_1000000_1000000_1000000_1000000_1000000_1000000_1000000_1000000_1000000_1000000_1000000_1000000_1000000_1000000_1000000_1000000_1000000_1000000_1000000_1000000_1000000_1000000_1000000_1000000_1000000_1000000_1000000_1000000_1000000_1000000_1000000_1000000_1000000_1000000_1000000_1000000_1000000_1000000_1000000,
  1_0000000_0000000_0000000_0000000_0000000_0000000_0000000_0000000_0000000_0000000_0000000_0000000_0000000_0000000_0000000_0970000_0972000_0974000_0976000_0978000_0980000_0982000_0984000_0986000_0988000_0990000_0992000_0994000_0996000_0998000_1000000_1000000_1000000_1000000_1000000_1000000_1000000_1000000_1000000_1000000_1000000_1000000_1000000_1000000_1000000_1000000_1000000_1000000_1000000_1000000_1000000_1000000_1000000_1000000_1000000_1000000_1000000_1000000_1000000_1000000_1000000_1000000_1000000_1000000_1000000_1000000_1000000_1000000_1000000_1000000_1000000_1000000_1000000_1000000_1000000_1000000_1000000_1000000_1000000_1000000_1000000_1000000_1000000_1000000_1000000_1000000_1000000_1000000_1000000_1000000_1000000_1000000_1000000_1000000_1000000_1000000_1000000_1000000_1000000_1000000_1000000_1000000_1000000_1000000_1000000_1000000_1000000_1000000_1000000_1000000_1000000_1000000_1000000_1000000_1000000_1000000_1000000_1000000_1000000_1000000_1000000_1000000_1000000_1000000_1000000_1000000_1000000_1000000_1000000_1000000_1000000_1000000_1000000_1000000_1000000_1000000_1000000_1000000_1000000_1000000_1000000_1000000_1000000_1000000_1000000_1000000_1000000_1000000_1000000_1000000_1000000,
  1_0000000_0000000_0000000_0000000_0000000_0000000_0000000_0000000_0000000_0000000_0000000_0000000_0000000_0000000_0000000_0970000_0972000_0974000_0976000_0978000_0980000_0982000_0984000_0986000_0988000_0990000_0992000_0994000_0996000_0998000_1000000_1000000_1000000_1000000_1000000_1000000_1000000_1000000_1000000_1000000_1000000_1000000_1000000_1000000_1000000_1000000_1000000_1000000_1000000_1000000_1000000_1000000_1000000_1000000_1000000_1000000_1000000_1000000_1000000_1000000_1000000_1000000_1000000_1000000_1000000_1000000_1000000_1000000_1000000_1000000_1000000_1000000_1000000_1000000_1000000_1000000_1000000_1000000_1000000_1000000_1000000_1000000_1000000_1000000_1000000_1000000_1000000_1000000_1000000_1000000_1000000_1000000_1000000_1000000_1000000_1000000_1000000_1000000_1000000_1000000_1000000_1000000_1000000_1000000_1000000_1000000_1000000_1000000_1000000_1000000_1000000_1000000_1000000_1000000_1000000_1000000_1000000_1000000_1000000_1000000_1000000_1000000_1000000_1000000_1000000_1000000_1000000_1000000_1000000_1000000_1000000_1000000_1000000_1000000_1000000_1000000_1000000_1000000_1000000_1000000_1000000_1000000_1000000_1000000_1000000_1000000_1000000_1000000_1000000_1000000_1000000_1000000,
  1_0000000_0000000_0000000_0000000_0000000_0000000_0000000_0000000_0000000_0000000_0000000_0000000_0000000_0000000_0000000_0970000_0972000_0974000_0976000_0978000_0980000_0982000_0984000_0986000_0988000_0990000_0992000_0994000_0996000_0998000_1000000_1000000_1000000_1000000_1000000_1000000_1000000_1000000_1000000_1000000_1000000_1000000_1000000_1000000_1000000_1000000_1000000_1000000_1000000_1000000_1000000_1000000_1000000_1000000_1000000_1000000_1000000_1000000_1000000_1000000_1000000_1000000_1000000_1000000_1000000_1000000_1000000_1000000_1000000_1000000_1000000_1000000_1000000_1000000_1000000_1000000_1000000_1000000_1000000_1000000_1000000_1000000_1000000_1000000_1000000_1000000_1000000_1000000_1000000_1000000_1000000_1000000_1000000_1000000_1000000_1000000_1000000_1000000_1000000_1000000_1000000_1000000_1000000_1000000_1000000_1000000_1000000_1000000_1000000_1000000_1000000_1000000_1000000_1000000_1000000_1000000_1000000_1000000_1000000_1000000_1000000_1000000_1000000_1000000_1000000_1000000_1000000_1000000_1000000_1000000_1000000_1000000_1000000_1000000_1000000_1000000_1000000_1000000_1000000_1000000_1000000_1000000_1000000_1000000_1000000_1000000_1000000_1000000_1000000_1000000_1000000_1000000_1000000,
  1_0000000_0000000_0000000_0000000_0000000_0000000_0000000_0000000_0000000_0000000_0000000_0000000_0000000_0000000_0000000_0970000_0972000_0974000_0976000_0978000_0980000_0982000_0984000_0986000_0988000_0990000_0992000_0994000_0996000_0998000_1000000_1000000_1000000_1000000_1000000_1000000_1000000_1000000_1000000_1000000_1000000_1000000_1000000_1000000_1000000_1000000_1000000_1000000_1000000_1000000_1000000_1000000_1000000_1000000_1000000_1000000_1000000_1000000_1000000_1000000_1000000_1000000_1000000_1000000_1000000_1000000_1000000_1000000_1000000_1000000_1000000_1000000_1000000_1000000_1000000_1000000_1000000_1000000_1000000_1000000_1000000_1000000_1000000_1000000_1000000_1000000_1000000_1000000_1000000_1000000_1000000_1000000_1000000_1000000_1000000_1000000_1000000_1000000_1000000_1000000_1000000_1000000_1000000_1000000_1000000_1000000_1000000_1000000_1000000_1000000_1000000_1000000_1000000_1000000_1000000_1000000_1000000_1000000_1000000_1000000_1000000_1000000_1000000_1000000_1000000_1000000_1000000_1000000_1000000_1000000_1000000_1000000_1000000_1000000_1000000_1000000_1000000_1000000_1000000_1000000_1000000_1000000_1000000_1000000_1000000_1000000_1000000_1000000_1000000_1000000_1000000_1000000_1000000_1000000,
  1_0000000_0000000_0000000_0000000_0000000_0000000_0000000_0000000_0000000_0000000_0000000_0000000_0000000_0000000_0000000_0970000_0972000_0974000_0976000_0978000_0980000_0982000_0984000_0986000_0988000_0990000_0992000_0994000_0996000_0998000_1000000_1000000_1000000_1000000_1000000_1000000_1000000_1000000_1000000_1000000_1000000_1000000_1000000_1000000_1000000_1000000_1000000_1000000_1000000_1000000_1000000_1000000_1000000_1000000_1000000_1000000_1000000_1000000_1000000_1000000_1000000_1000000_1000000_1000000_1000000_1000000_1000000_1000000_1000000_1000000_1000000_1000000_1000000_1000000_1000000_1000000_1000000_1000000_1000000_1000000_1000000_1000000_1000000_1000000_1000000_1000000_1000000_1000000_1000000_1000000_1000000_1000000_1000000_1000000_1000000_1000000_1000000_1000000_1000000_1000000_1000000_1000000_1000000_1000000_1000000_1000000_1000000_1000000_1000000_1000000_1000000_1000000_1000000_1000000_1000000_1000000_1000000_1000000_1000000_1000000_1000000_1000000_1000000_1000000_1000000_1000000_1000000_1000000_1000000_1000000_1000000_1000000_1000000_1000000_1000000_1000000_1000000_1000000_1000000_1000000_1000000_1000000_1000000_1000000_1000000_1000000_1000000_1000000_1000000_1000000_1000000_1000000_1000000_1000000_1000000,
  1_0000000_0000000_0000000_0000000_0000000_0000000_0000000_0000000_0000000_0000000_0000000_0000000_0000000_0000000_0000000_0970000_0972000_0974000_0976000_0978000_0980000_0982000_0984000_0986000_0988000_0990000_0992000_0994000_0996000_0998000_1000000_1000000_1000000_1000000_1000000_1000000_1000000_1000000_1000000_1000000_1000000_1000000_1000000_1000000_1000000_1000000_1000000_1000000_1000000_1000000_1000000_1000000_1000000_1000000_1000000_1000000_1000000_1000000_1000000_1000000_1000000_1000000_1000000_1000000_1000000_1000000_1000000_1000000_1000000_1000000_1000000_1000000_1000000_1000000_1000000_1000000_1000000_1000000_1000000_1000000_1000000_1000000_1000000_1000000_1000000_1000000_1000000_1000000_1000000_1000000_1000000_1000000_1000000_1000000_1000000_1000000_1000000_1000000_1000000_1000000_1000000_1000000_1000000_1000000_1000000_1000000_1000000_1000000_1000000_1000000_1000000_1000000_1000000_1000000_1000000_1000000_1000000_1000000_1000000_1000000_1000000_1000000_1000000_1000000_1000000_1000000_1000000_1000000_1000000_1000000_1000000_1000000_1000000_1000000_1000000_1000000_1000000_1000000_1000000_1000000_1000000_1000000_1000000_1000000_1000000_1000000_1000000_1000000_1000000_1000000_1000000_1000000_1000000_1000000_1000000_1000000,
  1_0000000_0000000_0000000_0000000_0000000_0000000_0000000_0000000_0000000_0000000_0000000_0000000_0000000_0000000_0000000_0970000_0972000_0974000_0976000_0978000_0980000_0982000_0984000_0986000_0988000_0990000_0992000_0994000_0996000_0998000_1000000_1000000_1000000_1000000_1000000_1000000_1000000_1000000_1000000_1000000_1000000_1000000_1000000_1000000_1000000_1000000_1000000_1000000_1000000_1000000_1000000_1000000_1000000_1000000_1000000_1000000_1000000_1000000_1000000_1000000_1000000_1000000_1000000_1000000_1000000_1000000_1000000_1000000_1000000_1000000_1000000_1000000_1000000_1000000_1000000_1000000_1000000_1000000_1000000_1000000_1000000_1000000_1000000_1000000_1000000_1000000_1000000_1000000_1000000_1000000_1000000_1000000_1000000_1000000_1000000_1000000_1000000_1000000_1000000_1000000_1000000_1000000_1000000_1000000_1000000_1000000_1000000_1000000_1000000_1000000_1000000_1000000_1000000_1000000_1000000_1000000_1000000_1000000_1000000_1000000_1000000_1000000_1000000_1000000_1000000_1000000_1000000_1000000_1000000_1000000_1000000_1000000_1000000_1000000_1000000_1000000_1000000_1000000_1000000_1000000_1000000_1000000_1000000_1000000_1000000_1000000_1000000_1000000_1000000_1000000_1000000_1000000_1000000_1000000_1000000_1000000_1000000,
  1_0000000_0000000_0000000_0000000_0000000_0000000_0000000_0000000_0000000_0000000_0000000_0000000_0000000_0000000_0000000_0970000_0972000_0974000_0976000_0978000_0980000_0982000_0984000_0986000_0988000_0990000_0992000_0994000_0996000_0998000_1000000_1000000_1000000_1000000_1000000_1000000_1000000_1000000_1000000_1000000_1000000_1000000_1000000_1000000_1000000_1000000_1000000_1000000_1000000_1000000_1000000_1000000_1000000_1000000_1000000_1000000_1000000_1000000_1000000_1000000_1000000_1000000_1000000_1000000_1000000_1000000_1000000_1000000_1000000_1000000_1000000_1000000_1000000_1000000_1000000_1000000_1000000_1000000_1000000_1000000_1000000_1000000_1000000_1000000_1000000_1000000_1000000_1000000_1000000_1000000_1000000_1000000_1000000_1000000_1000000_1000000_1000000_1000000_1000000_1000000_1000000_1000000_1000000_1000000_1000000_1000000_1000000_1000000_1000000_1000000_1000000_1000000_1000000_1000000_1000000_1000000_1000000_1000000_1000000_1000000_1000000_1000000_1000000_1000000_1000000_1000000_1000000_1000000_1000000_1000000_1000000_1000000_1000000_1000000_1000000_1000000_1000000_1000000_1000000_1000000_1000000_1000000_1000000_1000000_1000000_1000000_1000000_1000000_1000000_1000000_1000000_1000000_1000000_1000000_1000000_1000000_1000000_1000000,
  1_0000000_0000000_0000000_0000000_0000000_0000000_0000000_0000000_0000000_0000000_0000000_0000000_0000000_0000000_0000000_0970000_0972000_0974000_0976000_0978000_0980000_0982000_0984000_0986000_0988000_0990000_0992000_0994000_0996000_0998000_1000000_1000000_1000000_1000000_1000000_1000000_1000000_1000000_1000000_1000000_1000000_1000000_1000000_1000000_1000000_1000000_1000000_1000000_1000000_1000000_1000000_1000000_1000000_1000000_1000000_1000000_1000000_1000000_1000000_1000000_1000000_1000000_1000000_1000000_1000000_1000000_1000000_1000000_1000000_1000000_1000000_1000000_1000000_1000000_1000000_1000000_1000000_1000000_1000000_1000000_1000000_1000000_1000000_1000000_1000000_1000000_1000000_1000000_1000000_1000000_1000000_1000000_1000000_1000000_1000000_1000000_1000000_1000000_1000000_1000000_1000000_1000000_1000000_1000000_1000000_1000000_1000000_1000000_1000000_1000000_1000000_1000000_1000000_1000000_1000000_1000000_1000000_1000000_1000000_1000000_1000000_1000000_1000000_1000000_1000000_1000000_1000000_1000000_1000000_1000000_1000000_1000000_1000000_1000000_1000000_1000000_1000000_1000000_1000000_1000000_1000000_1000000_1000000_1000000_1000000_1000000_1000000_1000000_1000000_1000000_1000000_1000000_1000000_1000000_1000000_1000000_1000000_1000000_1000000,
  1_0000000_0000000_0000000_0000000_0000000_0000000_0000000_0000000_0000000_0000000_0000000_0000000_0000000_0000000_0000000_0970000_0972000_0974000_0976000_0978000_0980000_0982000_0984000_0986000_0988000_0990000_0992000_0994000_0996000_0998000_1000000_1000000_1000000_1000000_1000000_1000000_1000000_1000000_1000000_1000000_1000000_1000000_1000000_1000000_1000000_1000000_1000000_1000000_1000000_1000000_1000000_1000000_1000000_1000000_1000000_1000000_1000000_1000000_1000000_1000000_1000000_1000000_1000000_1000000_1000000_1000000_1000000_1000000_1000000_1000000_1000000_1000000_1000000_1000000_1000000_1000000_1000000_1000000_1000000_1000000_1000000_1000000_1000000_1000000_1000000_1000000_1000000_1000000_1000000_1000000_1000000_1000000_1000000_1000000_1000000_1000000_1000000_1000000_1000000_1000000_1000000_1000000_1000000_1000000_1000000_1000000_1000000_1000000_1000000_1000000_1000000_1000000_1000000_1000000_1000000_1000000_1000000_1000000_1000000_1000000_1000000_1000000_1000000_1000000_1000000_1000000_1000000_1000000_1000000_1000000_1000000_1000000_1000000_1000000_1000000_1000000_1000000_1000000_1000000_1000000_1000000_1000000_1000000_1000000_1000000_1000000_1000000_1000000_1000000_1000000_1000000_1000000_1000000_1000000_1000000_1000000_1000000_1000000_1000000_1000000,
  1_0000000_0000000_0000000_0000000_0000000_0000000_0000000_0000000_0000000_0000000_0000000_0000000_0000000_0000000_0000000_0970000_0972000_0974000_0976000_0978000_0980000_0982000_0984000_0986000_0988000_0990000_0992000_0994000_0996000_0998000_1000000_1000000_1000000_1000000_1000000_1000000_1000000_1000000_1000000_1000000_1000000_1000000_1000000_1000000_1000000_1000000_1000000_1000000_1000000_1000000_1000000_1000000_1000000_1000000_1000000_1000000_1000000_1000000_1000000_1000000_1000000_1000000_1000000_1000000_1000000_1000000_1000000_1000000_1000000_1000000_1000000_1000000_1000000_1000000_1000000_1000000_1000000_1000000_1000000_1000000_1000000_1000000_1000000_1000000_1000000_1000000_1000000_1000000_1000000_1000000_1000000_1000000_1000000_1000000_1000000_1000000_1000000_1000000_1000000_1000000_1000000_1000000_1000000_1000000_1000000_1000000_1000000_1000000_1000000_1000000_1000000_1000000_1000000_1000000_1000000_1000000_1000000_1000000_1000000_1000000_1000000_1000000_1000000_1000000_1000000_1000000_1000000_1000000_1000000_1000000_1000000_1000000_1000000_1000000_1000000_1000000_1000000_1000000_1000000_1000000_1000000_1000000_1000000_1000000_1000000_1000000_1000000_1000000_1000000_1000000_1000000_1000000_1000000_1000000_1000000_1000000_1000000_1000000_1000000_1000000_1000000,
  1_0000000_0000000_0000000_0000000_0000000_0000000_0000000_0000000_0000000_0000000_0000000_0000000_0000000_0000000_0000000_0970000_0972000_0974000_0976000_0978000_0980000_0982000_0984000_0986000_0988000_0990000_0992000_0994000_0996000_0998000_1000000_1000000_1000000_1000000_1000000_1000000_1000000_1000000_1000000_1000000_1000000_1000000_1000000_1000000_1000000_1000000_1000000_1000000_1000000_1000000_1000000_1000000_1000000_1000000_1000000_1000000_1000000_1000000_1000000_1000000_1000000_1000000_1000000_1000000_1000000_1000000_1000000_1000000_1000000_1000000_1000000_1000000_1000000_1000000_1000000_1000000_1000000_1000000_1000000_1000000_1000000_1000000_1000000_1000000_1000000_1000000_1000000_1000000_1000000_1000000_1000000_1000000_1000000_1000000_1000000_1000000_1000000_1000000_1000000_1000000_1000000_1000000_1000000_1000000_1000000_1000000_1000000_1000000_1000000_1000000_1000000_1000000_1000000_1000000_1000000_1000000_1000000_1000000_1000000_1000000_1000000_1000000_1000000_1000000_1000000_1000000_1000000_1000000_1000000_1000000_1000000_1000000_1000000_1000000_1000000_1000000_1000000_1000000_1000000_1000000_1000000_1000000_1000000_1000000_1000000_1000000_1000000_1000000_1000000_1000000_1000000_1000000_1000000_1000000_1000000_1000000_1000000_1000000_1000000_1000000_1000000_1000000,
  1_0000000_0000000_0000000_0000000_0000000_0000000_0000000_0000000_0000000_0000000_0000000_0000000_0000000_0000000_0000000_0970000_0972000_0974000_0976000_0978000_0980000_0982000_0984000_0986000_0988000_0990000_0992000_0994000_0996000_0998000_1000000_1000000_1000000_1000000_1000000_1000000_1000000_1000000_1000000_1000000_1000000_1000000_1000000_1000000_1000000_1000000_1000000_1000000_1000000_1000000_1000000_1000000_1000000_1000000_1000000_1000000_1000000_1000000_1000000_1000000_1000000_1000000_1000000_1000000_1000000_1000000_1000000_1000000_1000000_1000000_1000000_1000000_1000000_1000000_1000000_1000000_1000000_1000000_1000000_1000000_1000000_1000000_1000000_1000000_1000000_1000000_1000000_1000000_1000000_1000000_1000000_1000000_1000000_1000000_1000000_1000000_1000000_1000000_1000000_1000000_1000000_1000000_1000000_1000000_1000000_1000000_1000000_1000000_1000000_1000000_1000000_1000000_1000000_1000000_1000000_1000000_1000000_1000000_1000000_1000000_1000000_1000000_1000000_1000000_1000000_1000000_1000000_1000000_1000000_1000000_1000000_1000000_1000000_1000000_1000000_1000000_1000000_1000000_1000000_1000000_1000000_1000000_1000000_1000000_1000000_1000000_1000000_1000000_1000000_1000000_1000000_1000000_1000000_1000000_1000000_1000000_1000000_1000000_1000000_1000000_1000000_1000000_1000000,
  1_0000000_0000000_0000000_0000000_0000000_0000000_0000000_0000000_0000000_0000000_0000000_0000000_0000000_0000000_0000000_0970000_0972000_0974000_0976000_0978000_0980000_0982000_0984000_0986000_0988000_0990000_0992000_0994000_0996000_0998000_1000000_1000000_1000000_1000000_1000000_1000000_1000000_1000000_1000000_1000000_1000000_1000000_1000000_1000000_1000000_1000000_1000000_1000000_1000000_1000000_1000000_1000000_1000000_1000000_1000000_1000000_1000000_1000000_1000000_1000000_1000000_1000000_1000000_1000000_1000000_1000000_1000000_1000000_1000000_1000000_1000000_1000000_1000000_1000000_1000000_1000000_1000000_1000000_1000000_1000000_1000000_1000000_1000000_1000000_1000000_1000000_1000000_1000000_1000000_1000000_1000000_1000000_1000000_1000000_1000000_1000000_1000000_1000000_1000000_1000000_1000000_1000000_1000000_1000000_1000000_1000000_1000000_1000000_1000000_1000000_1000000_1000000_1000000_1000000_1000000_1000000_1000000_1000000_1000000_1000000_1000000_1000000_1000000_1000000_1000000_1000000_1000000_1000000_1000000_1000000_1000000_1000000_1000000_1000000_1000000_1000000_1000000_1000000_1000000_1000000_1000000_1000000_1000000_1000000_1000000_1000000_1000000_1000000_1000000_1000000_1000000_1000000_1000000_1000000_1000000_1000000_1000000_1000000_1000000_1000000_1000000_1000000_1000000_1000000,
  1_0000000_0000000_0000000_0000000_0000000_0000000_0000000_0000000_0000000_0000000_0000000_0000000_0000000_0000000_0000000_0970000_0972000_0974000_0976000_0978000_0980000_0982000_0984000_0986000_0988000_0990000_0992000_0994000_0996000_0998000_1000000_1000000_1000000_1000000_1000000_1000000_1000000_1000000_1000000_1000000_1000000_1000000_1000000_1000000_1000000_1000000_1000000_1000000_1000000_1000000_1000000_1000000_1000000_1000000_1000000_1000000_1000000_1000000_1000000_1000000_1000000_1000000_1000000_1000000_1000000_1000000_1000000_1000000_1000000_1000000_1000000_1000000_1000000_1000000_1000000_1000000_1000000_1000000_1000000_1000000_1000000_1000000_1000000_1000000_1000000_1000000_1000000_1000000_1000000_1000000_1000000_1000000_1000000_1000000_1000000_1000000_1000000_1000000_1000000_1000000_1000000_1000000_1000000_1000000_1000000_1000000_1000000_1000000_1000000_1000000_1000000_1000000_1000000_1000000_1000000_1000000_1000000_1000000_1000000_1000000_1000000_1000000_1000000_1000000_1000000_1000000_1000000_1000000_1000000_1000000_1000000_1000000_1000000_1000000_1000000_1000000_1000000_1000000_1000000_1000000_1000000_1000000_1000000_1000000_1000000_1000000_1000000_1000000_1000000_1000000_1000000_1000000_1000000_1000000_1000000_1000000_1000000_1000000_1000000_1000000_1000000_1000000_1000000_1000000_1000000,
  1_0000000_0000000_0000000_0000000_0000000_0000000_0000000_0000000_0000000_0000000_0000000_0000000_0000000_0000000_0000000_0970000_0972000_0974000_0976000_0978000_0980000_0982000_0984000_0986000_0988000_0990000_0992000_0994000_0996000_0998000_1000000_1000000_1000000_1000000_1000000_1000000_1000000_1000000_1000000_1000000_1000000_1000000_1000000_1000000_1000000_1000000_1000000_1000000_1000000_1000000_1000000_1000000_1000000_1000000_1000000_1000000_1000000_1000000_1000000_1000000_1000000_1000000_1000000_1000000_1000000_1000000_1000000_1000000_1000000_1000000_1000000_1000000_1000000_1000000_1000000_1000000_1000000_1000000_1000000_1000000_1000000_1000000_1000000_1000000_1000000_1000000_1000000_1000000_1000000_1000000_1000000_1000000_1000000_1000000_1000000_1000000_1000000_1000000_1000000_1000000_1000000_1000000_1000000_1000000_1000000_1000000_1000000_1000000_1000000_1000000_1000000_1000000_1000000_1000000_1000000_1000000_1000000_1000000_1000000_1000000_1000000_1000000_1000000_1000000_1000000_1000000_1000000_1000000_1000000_1000000_1000000_1000000_1000000_1000000_1000000_1000000_1000000_1000000_1000000_1000000_1000000_1000000_1000000_1000000_1000000_1000000_1000000_1000000_1000000_1000000_1000000_1000000_1000000_1000000_1000000_1000000_1000000_1000000_1000000_1000000_1000000_1000000_1000000_1000000_1000000_1000000,
  1_0000000_0000000_0000000_0000000_0000000_0000000_0000000_0000000_0000000_0000000_0000000_0000000_0000000_0000000_0000000_0970000_0972000_0974000_0976000_0978000_0980000_0982000_0984000_0986000_0988000_0990000_0992000_0994000_0996000_0998000_1000000_1000000_1000000_1000000_1000000_1000000_1000000_1000000_1000000_1000000_1000000_1000000_1000000_1000000_1000000_1000000_1000000_1000000_1000000_1000000_1000000_1000000_1000000_1000000_1000000_1000000_1000000_1000000_1000000_1000000_1000000_1000000_1000000_1000000_1000000_1000000_1000000_1000000_1000000_1000000_1000000_1000000_1000000_1000000_1000000_1000000_1000000_1000000_1000000_1000000_1000000_1000000_1000000_1000000_1000000_1000000_1000000_1000000_1000000_1000000_1000000_1000000_1000000_1000000_1000000_1000000_1000000_1000000_1000000_1000000_1000000_1000000_1000000_1000000_1000000_1000000_1000000_1000000_1000000_1000000_1000000_1000000_1000000_1000000_1000000_1000000_1000000_1000000_1000000_1000000_1000000_1000000_1000000_1000000_1000000_1000000_1000000_1000000_1000000_1000000_1000000_1000000_1000000_1000000_1000000_1000000_1000000_1000000_1000000_1000000_1000000_1000000_1000000_1000000_1000000_1000000_1000000_1000000_1000000_1000000_1000000_1000000_1000000_1000000_1000000_1000000_1000000_1000000_1000000_1000000_1000000_1000000_1000000_1000000_1000000_1000000_1000000,
  1_0000000_0000000_0000000_0000000_0000000_0000000_0000000_0000000_0000000_0000000_0000000_0000000_0000000_0000000_0000000_0970000_0972000_0974000_0976000_0978000_0980000_0982000_0984000_0986000_0988000_0990000_0992000_0994000_0996000_0998000_1000000_1000000_1000000_1000000_1000000_1000000_1000000_1000000_1000000_1000000_1000000_1000000_1000000_1000000_1000000_1000000_1000000_1000000_1000000_1000000_1000000_1000000_1000000_1000000_1000000_1000000_1000000_1000000_1000000_1000000_1000000_1000000_1000000_1000000_1000000_1000000_1000000_1000000_1000000_1000000_1000000_1000000_1000000_1000000_1000000_1000000_1000000_1000000_1000000_1000000_1000000_1000000_1000000_1000000_1000000_1000000_1000000_1000000_1000000_1000000_1000000_1000000_1000000_1000000_1000000_1000000_1000000_1000000_1000000_1000000_1000000_1000000_1000000_1000000_1000000_1000000_1000000_1000000_1000000_1000000_1000000_1000000_1000000_1000000_1000000_1000000_1000000_1000000_1000000_1000000_1000000_1000000_1000000_1000000_1000000_1000000_1000000_1000000_1000000_1000000_1000000_1000000_1000000_1000000_1000000_1000000_1000000_1000000_1000000_1000000_1000000_1000000_1000000_1000000_1000000_1000000_1000000_1000000_1000000_1000000_1000000_1000000_1000000_1000000_1000000_1000000_1000000_1000000_1000000_1000000_1000000_1000000_1000000_1000000_1000000_1000000_1000000_1000000,
  1_0000000_0000000_0000000_0000000_0000000_0000000_0000000_0000000_0000000_0000000_0000000_0000000_0000000_0000000_0000000_0970000_0972000_0974000_0976000_0978000_0980000_0982000_0984000_0986000_0988000_0990000_0992000_0994000_0996000_0998000_1000000_1000000_1000000_1000000_1000000_1000000_1000000_1000000_1000000_1000000_1000000_1000000_1000000_1000000_1000000_1000000_1000000_1000000_1000000_1000000_1000000_1000000_1000000_1000000_1000000_1000000_1000000_1000000_1000000_1000000_1000000_1000000_1000000_1000000_1000000_1000000_1000000_1000000_1000000_1000000_1000000_1000000_1000000_1000000_1000000_1000000_1000000_1000000_1000000_1000000_1000000_1000000_1000000_1000000_1000000_1000000_1000000_1000000_1000000_1000000_1000000_1000000_1000000_1000000_1000000_1000000_1000000_1000000_1000000_1000000_1000000_1000000_1000000_1000000_1000000_1000000_1000000_1000000_1000000_1000000_1000000_1000000_1000000_1000000_1000000_1000000_1000000_1000000_1000000_1000000_1000000_1000000_1000000_1000000_1000000_1000000_1000000_1000000_1000000_1000000_1000000_1000000_1000000_1000000_1000000_1000000_1000000_1000000_1000000_1000000_1000000_1000000_1000000_1000000_1000000_1000000_1000000_1000000_1000000_1000000_1000000_1000000_1000000_1000000_1000000_1000000_1000000_1000000_1000000_1000000_1000000_1000000_1000000_1000000_1000000_1000000_1000000_1000000_1000000,
  1_0000000_0000000_0000000_0000000_0000000_0000000_0000000_0000000_0000000_0000000_0000000_0000000_0000000_0000000_0000000_0970000_0972000_0974000_0976000_0978000_0980000_0982000_0984000_0986000_0988000_0990000_0992000_0994000_0996000_0998000_1000000_1000000_1000000_1000000_1000000_1000000_1000000_1000000_1000000_1000000_1000000_1000000_1000000_1000000_1000000_1000000_1000000_1000000_1000000_1000000_1000000_1000000_1000000_1000000_1000000_1000000_1000000_1000000_1000000_1000000_1000000_1000000_1000000_1000000_1000000_1000000_1000000_1000000_1000000_1000000_1000000_1000000_1000000_1000000_1000000_1000000_1000000_1000000_1000000_1000000_1000000_1000000_1000000_1000000_1000000_1000000_1000000_1000000_1000000_1000000_1000000_1000000_1000000_1000000_1000000_1000000_1000000_1000000_1000000_1000000_1000000_1000000_1000000_1000000_1000000_1000000_1000000_1000000_1000000_1000000_1000000_1000000_1000000_1000000_1000000_1000000_1000000_1000000_1000000_1000000_1000000_1000000_1000000_1000000_1000000_1000000_1000000_1000000_1000000_1000000_1000000_1000000_1000000_1000000_1000000_1000000_1000000_1000000_1000000_1000000_1000000_1000000_1000000_1000000_1000000_1000000_1000000_1000000_1000000_1000000_1000000_1000000_1000000_1000000_1000000_1000000_1000000_1000000_1000000_1000000_1000000_1000000_1000000_1000000_1000000_1000000_1000000_1000000_1000000_1000000,
  1_0000000_0000000_0000000_0000000_0000000_0000000_0000000_0000000_0000000_0000000_0000000_0000000_0000000_0000000_0000000_0970000_0972000_0974000_0976000_0978000_0980000_0982000_0984000_0986000_0988000_0990000_0992000_0994000_0996000_0998000_1000000_1000000_1000000_1000000_1000000_1000000_1000000_1000000_1000000_1000000_1000000_1000000_1000000_1000000_1000000_1000000_1000000_1000000_1000000_1000000_1000000_1000000_1000000_1000000_1000000_1000000_1000000_1000000_1000000_1000000_1000000_1000000_1000000_1000000_1000000_1000000_1000000_1000000_1000000_1000000_1000000_1000000_1000000_1000000_1000000_1000000_1000000_1000000_1000000_1000000_1000000_1000000_1000000_1000000_1000000_1000000_1000000_1000000_1000000_1000000_1000000_1000000_1000000_1000000_1000000_1000000_1000000_1000000_1000000_1000000_1000000_1000000_1000000_1000000_1000000_1000000_1000000_1000000_1000000_1000000_1000000_1000000_1000000_1000000_1000000_1000000_1000000_1000000_1000000_1000000_1000000_1000000_1000000_1000000_1000000_1000000_1000000_1000000_1000000_1000000_1000000_1000000_1000000_1000000_1000000_1000000_1000000_1000000_1000000_1000000_1000000_1000000_1000000_1000000_1000000_1000000_1000000_1000000_1000000_1000000_1000000_1000000_1000000_1000000_1000000_1000000_1000000_1000000_1000000_1000000_1000000_1000000_1000000_1000000_1000000_1000000_1000000_1000000_1000000_1000000_1000000,
  1_0000000_0000000_0000000_0000000_0000000_0000000_0000000_0000000_0000000_0000000_0000000_0000000_0000000_0000000_0000000_0970000_0972000_0974000_0976000_0978000_0980000_0982000_0984000_0986000_0988000_0990000_0992000_0994000_0996000_0998000_1000000_1000000_1000000_1000000_1000000_1000000_1000000_1000000_1000000_1000000_1000000_1000000_1000000_1000000_1000000_1000000_1000000_1000000_1000000_1000000_1000000_1000000_1000000_1000000_1000000_1000000_1000000_1000000_1000000_1000000_1000000_1000000_1000000_1000000_1000000_1000000_1000000_1000000_1000000_1000000_1000000_1000000_1000000_1000000_1000000_1000000_1000000_1000000_1000000_1000000_1000000_1000000_1000000_1000000_1000000_1000000_1000000_1000000_1000000_1000000_1000000_1000000_1000000_1000000_1000000_1000000_1000000_1000000_1000000_1000000_1000000_1000000_1000000_1000000_1000000_1000000_1000000_1000000_1000000_1000000_1000000_1000000_1000000_1000000_1000000_1000000_1000000_1000000_1000000_1000000_1000000_1000000_1000000_1000000_1000000_1000000_1000000_1000000_1000000_1000000_1000000_1000000_1000000_1000000_1000000_1000000_1000000_1000000_1000000_1000000_1000000_1000000_1000000_1000000_1000000_1000000_1000000_1000000_1000000_1000000_1000000_1000000_1000000_1000000_1000000_1000000_1000000_1000000_1000000_1000000_1000000_1000000_1000000_1000000_1000000_1000000_1000000_1000000_1000000_1000000_1000000_1000000,
  1_0000000_0000000_0000000_0000000_0000000_0000000_0000000_0000000_0000000_0000000_0000000_0000000_0000000_0000000_0000000_0970000_0972000_0974000_0976000_0978000_0980000_0982000_0984000_0986000_0988000_0990000_0992000_0994000_0996000_0998000_1000000_1000000_1000000_1000000_1000000_1000000_1000000_1000000_1000000_1000000_1000000_1000000_1000000_1000000_1000000_1000000_1000000_1000000_1000000_1000000_1000000_1000000_1000000_1000000_1000000_1000000_1000000_1000000_1000000_1000000_1000000_1000000_1000000_1000000_1000000_1000000_1000000_1000000_1000000_1000000_1000000_1000000_1000000_1000000_1000000_1000000_1000000_1000000_1000000_1000000_1000000_1000000_1000000_1000000_1000000_1000000_1000000_1000000_1000000_1000000_1000000_1000000_1000000_1000000_1000000_1000000_1000000_1000000_1000000_1000000_1000000_1000000_1000000_1000000_1000000_1000000_1000000_1000000_1000000_1000000_1000000_1000000_1000000_1000000_1000000_1000000_1000000_1000000_1000000_1000000_1000000_1000000_1000000_1000000_1000000_1000000_1000000_1000000_1000000_1000000_1000000_1000000_1000000_1000000_1000000_1000000_1000000_1000000_1000000_1000000_1000000_1000000_1000000_1000000_1000000_1000000_1000000_1000000_1000000_1000000_1000000_1000000_1000000_1000000_1000000_1000000_1000000_1000000_1000000_1000000_1000000_1000000_1000000_1000000_1000000_1000000_1000000_1000000_1000000_1000000_1000000_1000000_1000000,
  1_0000000_0000000_0000000_0000000_0000000_0000000_0000000_0000000_0000000_0000000_0000000_0000000_0000000_0000000_0000000_0970000_0972000_0974000_0976000_0978000_0980000_0982000_0984000_0986000_0988000_0990000_0992000_0994000_0996000_0998000_1000000_1000000_1000000_1000000_1000000_1000000_1000000_1000000_1000000_1000000_1000000_1000000_1000000_1000000_1000000_1000000_1000000_1000000_1000000_1000000_1000000_1000000_1000000_1000000_1000000_1000000_1000000_1000000_1000000_1000000_1000000_1000000_1000000_1000000_1000000_1000000_1000000_1000000_1000000_1000000_1000000_1000000_1000000_1000000_1000000_1000000_1000000_1000000_1000000_1000000_1000000_1000000_1000000_1000000_1000000_1000000_1000000_1000000_1000000_1000000_1000000_1000000_1000000_1000000_1000000_1000000_1000000_1000000_1000000_1000000_1000000_1000000_1000000_1000000_1000000_1000000_1000000_1000000_1000000_1000000_1000000_1000000_1000000_1000000_1000000_1000000_1000000_1000000_1000000_1000000_1000000_1000000_1000000_1000000_1000000_1000000_1000000_1000000_1000000_1000000_1000000_1000000_1000000_1000000_1000000_1000000_1000000_1000000_1000000_1000000_1000000_1000000_1000000_1000000_1000000_1000000_1000000_1000000_1000000_1000000_1000000_1000000_1000000_1000000_1000000_1000000_1000000_1000000_1000000_1000000_1000000_1000000_1000000_1000000_1000000_1000000_1000000_1000000_1000000_1000000_1000000_1000000_1000000_1000000,
  1_0000000_0000000_0000000_0000000_0000000_0000000_0000000_0000000_0000000_0000000_0000000_0000000_0000000_0000000_0000000_0970000_0972000_0974000_0976000_0978000_0980000_0982000_0984000_0986000_0988000_0990000_0992000_0994000_0996000_0998000_1000000_1000000_1000000_1000000_1000000_1000000_1000000_1000000_1000000_1000000_1000000_1000000_1000000_1000000_1000000_1000000_1000000_1000000_1000000_1000000_1000000_1000000_1000000_1000000_1000000_1000000_1000000_1000000_1000000_1000000_1000000_1000000_1000000_1000000_1000000_1000000_1000000_1000000_1000000_1000000_1000000_1000000_1000000_1000000_1000000_1000000_1000000_1000000_1000000_1000000_1000000_1000000_1000000_1000000_1000000_1000000_1000000_1000000_1000000_1000000_1000000_1000000_1000000_1000000_1000000_1000000_1000000_1000000_1000000_1000000_1000000_1000000_1000000_1000000_1000000_1000000_1000000_1000000_1000000_1000000_1000000_1000000_1000000_1000000_1000000_1000000_1000000_1000000_1000000_1000000_1000000_1000000_1000000_1000000_1000000_1000000_1000000_1000000_1000000_1000000_1000000_1000000_1000000_1000000_1000000_1000000_1000000_1000000_1000000_1000000_1000000_1000000_1000000_1000000_1000000_1000000_1000000_1000000_1000000_1000000_1000000_1000000_1000000_1000000_1000000_1000000_1000000_1000000_1000000_1000000_1000000_1000000_1000000_1000000_1000000_1000000_1000000_1000000_1000000_1000000_1000000_1000000_1000000_1000000_1000000,
  1_0000000_0000000_0000000_0000000_0000000_0000000_0000000_0000000_0000000_0000000_0000000_0000000_0000000_0000000_0000000_0970000_0972000_0974000_0976000_0978000_0980000_0982000_0984000_0986000_0988000_0990000_0992000_0994000_0996000_0998000_1000000_1000000_1000000_1000000_1000000_1000000_1000000_1000000_1000000_1000000_1000000_1000000_1000000_1000000_1000000_1000000_1000000_1000000_1000000_1000000_1000000_1000000_1000000_1000000_1000000_1000000_1000000_1000000_1000000_1000000_1000000_1000000_1000000_1000000_1000000_1000000_1000000_1000000_1000000_1000000_1000000_1000000_1000000_1000000_1000000_1000000_1000000_1000000_1000000_1000000_1000000_1000000_1000000_1000000_1000000_1000000_1000000_1000000_1000000_1000000_1000000_1000000_1000000_1000000_1000000_1000000_1000000_1000000_1000000_1000000_1000000_1000000_1000000_1000000_1000000_1000000_1000000_1000000_1000000_1000000_1000000_1000000_1000000_1000000_1000000_1000000_1000000_1000000_1000000_1000000_1000000_1000000_1000000_1000000_1000000_1000000_1000000_1000000_1000000_1000000_1000000_1000000_1000000_1000000_1000000_1000000_1000000_1000000_1000000_1000000_1000000_1000000_1000000_1000000_1000000_1000000_1000000_1000000_1000000_1000000_1000000_1000000_1000000_1000000_1000000_1000000_1000000_1000000_1000000_1000000_1000000_1000000_1000000_1000000_1000000_1000000_1000000_1000000_1000000_1000000_1000000_1000000_1000000_1000000_1000000_1000000,
  1_0000000_0000000_0000000_0000000_0000000_0000000_0000000_0000000_0000000_0000000_0000000_0000000_0000000_0000000_0000000_0970000_0972000_0974000_0976000_0978000_0980000_0982000_0984000_0986000_0988000_0990000_0992000_0994000_0996000_0998000_1000000_1000000_1000000_1000000_1000000_1000000_1000000_1000000_1000000_1000000_1000000_1000000_1000000_1000000_1000000_1000000_1000000_1000000_1000000_1000000_1000000_1000000_1000000_1000000_1000000_1000000_1000000_1000000_1000000_1000000_1000000_1000000_1000000_1000000_1000000_1000000_1000000_1000000_1000000_1000000_1000000_1000000_1000000_1000000_1000000_1000000_1000000_1000000_1000000_1000000_1000000_1000000_1000000_1000000_1000000_1000000_1000000_1000000_1000000_1000000_1000000_1000000_1000000_1000000_1000000_1000000_1000000_1000000_1000000_1000000_1000000_1000000_1000000_1000000_1000000_1000000_1000000_1000000_1000000_1000000_1000000_1000000_1000000_1000000_1000000_1000000_1000000_1000000_1000000_1000000_1000000_1000000_1000000_1000000_1000000_1000000_1000000_1000000_1000000_1000000_1000000_1000000_1000000_1000000_1000000_1000000_1000000_1000000_1000000_1000000_1000000_1000000_1000000_1000000_1000000_1000000_1000000_1000000_1000000_1000000_1000000_1000000_1000000_1000000_1000000_1000000_1000000_1000000_1000000_1000000_1000000_1000000_1000000_1000000_1000000_1000000_1000000_1000000_1000000_1000000_1000000_1000000_1000000_1000000_1000000_1000000_1000000,
  1_0000000_0000000_0000000_0000000_0000000_0000000_0000000_0000000_0000000_0000000_0000000_0000000_0000000_0000000_0000000_0970000_0972000_0974000_0976000_0978000_0980000_0982000_0984000_0986000_0988000_0990000_0992000_0994000_0996000_0998000_1000000_1000000_1000000_1000000_1000000_1000000_1000000_1000000_1000000_1000000_1000000_1000000_1000000_1000000_1000000_1000000_1000000_1000000_1000000_1000000_1000000_1000000_1000000_1000000_1000000_1000000_1000000_1000000_1000000_1000000_1000000_1000000_1000000_1000000_1000000_1000000_1000000_1000000_1000000_1000000_1000000_1000000_1000000_1000000_1000000_1000000_1000000_1000000_1000000_1000000_1000000_1000000_1000000_1000000_1000000_1000000_1000000_1000000_1000000_1000000_1000000_1000000_1000000_1000000_1000000_1000000_1000000_1000000_1000000_1000000_1000000_1000000_1000000_1000000_1000000_1000000_1000000_1000000_1000000_1000000_1000000_1000000_1000000_1000000_1000000_1000000_1000000_1000000_1000000_1000000_1000000_1000000_1000000_1000000_1000000_1000000_1000000_1000000_1000000_1000000_1000000_1000000_1000000_1000000_1000000_1000000_1000000_1000000_1000000_1000000_1000000_1000000_1000000_1000000_1000000_1000000_1000000_1000000_1000000_1000000_1000000_1000000_1000000_1000000_1000000_1000000_1000000_1000000_1000000_1000000_1000000_1000000_1000000_1000000_1000000_1000000_1000000_1000000_1000000_1000000_1000000_1000000_1000000_1000000_1000000_1000000_1000000_1000000,
  1_0000000_0000000_0000000_0000000_0000000_0000000_0000000_0000000_0000000_0000000_0000000_0000000_0000000_0000000_0000000_0970000_0972000_0974000_0976000_0978000_0980000_0982000_0984000_0986000_0988000_0990000_0992000_0994000_0996000_0998000_1000000_1000000_1000000_1000000_1000000_1000000_1000000_1000000_1000000_1000000_1000000_1000000_1000000_1000000_1000000_1000000_1000000_1000000_1000000_1000000_1000000_1000000_1000000_1000000_1000000_1000000_1000000_1000000_1000000_1000000_1000000_1000000_1000000_1000000_1000000_1000000_1000000_1000000_1000000_1000000_1000000_1000000_1000000_1000000_1000000_1000000_1000000_1000000_1000000_1000000_1000000_1000000_1000000_1000000_1000000_1000000_1000000_1000000_1000000_1000000_1000000_1000000_1000000_1000000_1000000_1000000_1000000_1000000_1000000_1000000_1000000_1000000_1000000_1000000_1000000_1000000_1000000_1000000_1000000_1000000_1000000_1000000_1000000_1000000_1000000_1000000_1000000_1000000_1000000_1000000_1000000_1000000_1000000_1000000_1000000_1000000_1000000_1000000_1000000_1000000_1000000_1000000_1000000_1000000_1000000_1000000_1000000_1000000_1000000_1000000_1000000_1000000_1000000_1000000_1000000_1000000_1000000_1000000_1000000_1000000_1000000_1000000_1000000_1000000_1000000_1000000_1000000_1000000_1000000_1000000_1000000_1000000_1000000_1000000_1000000_1000000_1000000_1000000_1000000_1000000_1000000_1000000_1000000_1000000_1000000_1000000_1000000_1000000_1000000,
  1_0000000_0000000_0000000_0000000_0000000_0000000_0000000_0000000_0000000_0000000_0000000_0000000_0000000_0000000_0000000_0970000_0972000_0974000_0976000_0978000_0980000_0982000_0984000_0986000_0988000_0990000_0992000_0994000_0996000_0998000_1000000_1000000_1000000_1000000_1000000_1000000_1000000_1000000_1000000_1000000_1000000_1000000_1000000_1000000_1000000_1000000_1000000_1000000_1000000_1000000_1000000_1000000_1000000_1000000_1000000_1000000_1000000_1000000_1000000_1000000_1000000_1000000_1000000_1000000_1000000_1000000_1000000_1000000_1000000_1000000_1000000_1000000_1000000_1000000_1000000_1000000_1000000_1000000_1000000_1000000_1000000_1000000_1000000_1000000_1000000_1000000_1000000_1000000_1000000_1000000_1000000_1000000_1000000_1000000_1000000_1000000_1000000_1000000_1000000_1000000_1000000_1000000_1000000_1000000_1000000_1000000_1000000_1000000_1000000_1000000_1000000_1000000_1000000_1000000_1000000_1000000_1000000_1000000_1000000_1000000_1000000_1000000_1000000_1000000_1000000_1000000_1000000_1000000_1000000_1000000_1000000_1000000_1000000_1000000_1000000_1000000_1000000_1000000_1000000_1000000_1000000_1000000_1000000_1000000_1000000_1000000_1000000_1000000_1000000_1000000_1000000_1000000_1000000_1000000_1000000_1000000_1000000_1000000_1000000_1000000_1000000_1000000_1000000_1000000_1000000_1000000_1000000_1000000_1000000_1000000_1000000_1000000_1000000_1000000_1000000_1000000_1000000_1000000_1000000_1000000,
  1_0000000_0000000_0000000_0000000_0000000_0000000_0000000_0000000_0000000_0000000_0000000_0000000_0000000_0000000_0000000_0970000_0972000_0974000_0976000_0978000_0980000_0982000_0984000_0986000_0988000_0990000_0992000_0994000_0996000_0998000_1000000_1000000_1000000_1000000_1000000_1000000_1000000_1000000_1000000_1000000_1000000_1000000_1000000_1000000_1000000_1000000_1000000_1000000_1000000_1000000_1000000_1000000_1000000_1000000_1000000_1000000_1000000_1000000_1000000_1000000_1000000_1000000_1000000_1000000_1000000_1000000_1000000_1000000_1000000_1000000_1000000_1000000_1000000_1000000_1000000_1000000_1000000_1000000_1000000_1000000_1000000_1000000_1000000_1000000_1000000_1000000_1000000_1000000_1000000_1000000_1000000_1000000_1000000_1000000_1000000_1000000_1000000_1000000_1000000_1000000_1000000_1000000_1000000_1000000_1000000_1000000_1000000_1000000_1000000_1000000_1000000_1000000_1000000_1000000_1000000_1000000_1000000_1000000_1000000_1000000_1000000_1000000_1000000_1000000_1000000_1000000_1000000_1000000_1000000_1000000_1000000_1000000_1000000_1000000_1000000_1000000_1000000_1000000_1000000_1000000_1000000_1000000_1000000_1000000_1000000_1000000_1000000_1000000_1000000_1000000_1000000_1000000_1000000_1000000_1000000_1000000_1000000_1000000_1000000_1000000_1000000_1000000_1000000_1000000_1000000_1000000_1000000_1000000_1000000_1000000_1000000_1000000_1000000_1000000_1000000_1000000_1000000_1000000_1000000_1000000_1000000,
  1_0000000_0000000_0000000_0000000_0000000_0000000_0000000_0000000_0000000_0000000_0000000_0000000_0000000_0000000_0000000_0970000_0972000_0974000_0976000_0978000_0980000_0982000_0984000_0986000_0988000_0990000_0992000_0994000_0996000_0998000_1000000_1000000_1000000_1000000_1000000_1000000_1000000_1000000_1000000_1000000_1000000_1000000_1000000_1000000_1000000_1000000_1000000_1000000_1000000_1000000_1000000_1000000_1000000_1000000_1000000_1000000_1000000_1000000_1000000_1000000_1000000_1000000_1000000_1000000_1000000_1000000_1000000_1000000_1000000_1000000_1000000_1000000_1000000_1000000_1000000_1000000_1000000_1000000_1000000_1000000_1000000_1000000_1000000_1000000_1000000_1000000_1000000_1000000_1000000_1000000_1000000_1000000_1000000_1000000_1000000_1000000_1000000_1000000_1000000_1000000_1000000_1000000_1000000_1000000_1000000_1000000_1000000_1000000_1000000_1000000_1000000_1000000_1000000_1000000_1000000_1000000_1000000_1000000_1000000_1000000_1000000_1000000_1000000_1000000_1000000_1000000_1000000_1000000_1000000_1000000_1000000_1000000_1000000_1000000_1000000_1000000_1000000_1000000_1000000_1000000_1000000_1000000_1000000_1000000_1000000_1000000_1000000_1000000_1000000_1000000_1000000_1000000_1000000_1000000_1000000_1000000_1000000_1000000_1000000_1000000_1000000_1000000_1000000_1000000_1000000_1000000_1000000_1000000_1000000_1000000_1000000_1000000_1000000_1000000_1000000_1000000_1000000_1000000_1000000_1000000_1000000_1000000,
  1_0000000_0000000_0000000_0000000_0000000_0000000_0000000_0000000_0000000_0000000_0000000_0000000_0000000_0000000_0000000_0970000_0972000_0974000_0976000_0978000_0980000_0982000_0984000_0986000_0988000_0990000_0992000_0994000_0996000_0998000_1000000_1000000_1000000_1000000_1000000_1000000_1000000_1000000_1000000_1000000_1000000_1000000_1000000_1000000_1000000_1000000_1000000_1000000_1000000_1000000_1000000_1000000_1000000_1000000_1000000_1000000_1000000_1000000_1000000_1000000_1000000_1000000_1000000_1000000_1000000_1000000_1000000_1000000_1000000_1000000_1000000_1000000_1000000_1000000_1000000_1000000_1000000_1000000_1000000_1000000_1000000_1000000_1000000_1000000_1000000_1000000_1000000_1000000_1000000_1000000_1000000_1000000_1000000_1000000_1000000_1000000_1000000_1000000_1000000_1000000_1000000_1000000_1000000_1000000_1000000_1000000_1000000_1000000_1000000_1000000_1000000_1000000_1000000_1000000_1000000_1000000_1000000_1000000_1000000_1000000_1000000_1000000_1000000_1000000_1000000_1000000_1000000_1000000_1000000_1000000_1000000_1000000_1000000_1000000_1000000_1000000_1000000_1000000_1000000_1000000_1000000_1000000_1000000_1000000_1000000_1000000_1000000_1000000_1000000_1000000_1000000_1000000_1000000_1000000_1000000_1000000_1000000_1000000_1000000_1000000_1000000_1000000_1000000_1000000_1000000_1000000_1000000_1000000_1000000_1000000_1000000_1000000_1000000_1000000_1000000_1000000_1000000_1000000_1000000_1000000_1000000_1000000_1000000,
  1_0000000_0000000_0000000_0000000_0000000_0000000_0000000_0000000_0000000_0000000_0000000_0000000_0000000_0000000_0000000_0970000_0972000_0974000_0976000_0978000_0980000_0982000_0984000_0986000_0988000_0990000_0992000_0994000_0996000_0998000_1000000_1000000_1000000_1000000_1000000_1000000_1000000_1000000_1000000_1000000_1000000_1000000_1000000_1000000_1000000_1000000_1000000_1000000_1000000_1000000_1000000_1000000_1000000_1000000_1000000_1000000_1000000_1000000_1000000_1000000_1000000_1000000_1000000_1000000_1000000_1000000_1000000_1000000_1000000_1000000_1000000_1000000_1000000_1000000_1000000_1000000_1000000_1000000_1000000_1000000_1000000_1000000_1000000_1000000_1000000_1000000_1000000_1000000_1000000_1000000_1000000_1000000_1000000_1000000_1000000_1000000_1000000_1000000_1000000_1000000_1000000_1000000_1000000_1000000_1000000_1000000_1000000_1000000_1000000_1000000_1000000_1000000_1000000_1000000_1000000_1000000_1000000_1000000_1000000_1000000_1000000_1000000_1000000_1000000_1000000_1000000_1000000_1000000_1000000_1000000_1000000_1000000_1000000_1000000_1000000_1000000_1000000_1000000_1000000_1000000_1000000_1000000_1000000_1000000_1000000_1000000_1000000_1000000_1000000_1000000_1000000_1000000_1000000_1000000_1000000_1000000_1000000_1000000_1000000_1000000_1000000_1000000_1000000_1000000_1000000_1000000_1000000_1000000_1000000_1000000_1000000_1000000_1000000_1000000_1000000_1000000_1000000_1000000_1000000_1000000_1000000_1000000_1000000_1000000,
  1_0000000_0000000_0000000_0000000_0000000_0000000_0000000_0000000_0000000_0000000_0000000_0000000_0000000_0000000_0000000_0970000_0972000_0974000_0976000_0978000_0980000_0982000_0984000_0986000_0988000_0990000_0992000_0994000_0996000_0998000_1000000_1000000_1000000_1000000_1000000_1000000_1000000_1000000_1000000_1000000_1000000_1000000_1000000_1000000_1000000_1000000_1000000_1000000_1000000_1000000_1000000_1000000_1000000_1000000_1000000_1000000_1000000_1000000_1000000_1000000_1000000_1000000_1000000_1000000_1000000_1000000_1000000_1000000_1000000_1000000_1000000_1000000_1000000_1000000_1000000_1000000_1000000_1000000_1000000_1000000_1000000_1000000_1000000_1000000_1000000_1000000_1000000_1000000_1000000_1000000_1000000_1000000_1000000_1000000_1000000_1000000_1000000_1000000_1000000_1000000_1000000_1000000_1000000_1000000_1000000_1000000_1000000_1000000_1000000_1000000_1000000_1000000_1000000_1000000_1000000_1000000_1000000_1000000_1000000_1000000_1000000_1000000_1000000_1000000_1000000_1000000_1000000_1000000_1000000_1000000_1000000_1000000_1000000_1000000_1000000_1000000_1000000_1000000_1000000_1000000_1000000_1000000_1000000_1000000_1000000_1000000_1000000_1000000_1000000_1000000_1000000_1000000_1000000_1000000_1000000_1000000_1000000_1000000_1000000_1000000_1000000_1000000_1000000_1000000_1000000_1000000_1000000_1000000_1000000_1000000_1000000_1000000_1000000_1000000_1000000_1000000_1000000_1000000_1000000_1000000_1000000_1000000_1000000_1000000_1000000,
  1_0000000_0000000_0000000_0000000_0000000_0000000_0000000_0000000_0000000_0000000_0000000_0000000_0000000_0000000_0000000_0970000_0972000_0974000_0976000_0978000_0980000_0982000_0984000_0986000_0988000_0990000_0992000_0994000_0996000_0998000_1000000_1000000_1000000_1000000_1000000_1000000_1000000_1000000_1000000_1000000_1000000_1000000_1000000_1000000_1000000_1000000_1000000_1000000_1000000_1000000_1000000_1000000_1000000_1000000_1000000_1000000_1000000_1000000_1000000_1000000_1000000_1000000_1000000_1000000_1000000_1000000_1000000_1000000_1000000_1000000_1000000_1000000_1000000_1000000_1000000_1000000_1000000_1000000_1000000_1000000_1000000_1000000_1000000_1000000_1000000_1000000_1000000_1000000_1000000_1000000_1000000_1000000_1000000_1000000_1000000_1000000_1000000_1000000_1000000_1000000_1000000_1000000_1000000_1000000_1000000_1000000_1000000_1000000_1000000_1000000_1000000_1000000_1000000_1000000_1000000_1000000_1000000_1000000_1000000_1000000_1000000_1000000_1000000_1000000_1000000_1000000_1000000_1000000_1000000_1000000_1000000_1000000_1000000_1000000_1000000_1000000_1000000_1000000_1000000_1000000_1000000_1000000_1000000_1000000_1000000_1000000_1000000_1000000_1000000_1000000_1000000_1000000_1000000_1000000_1000000_1000000_1000000_1000000_1000000_1000000_1000000_1000000_1000000_1000000_1000000_1000000_1000000_1000000_1000000_1000000_1000000_1000000_1000000_1000000_1000000_1000000_1000000_1000000_1000000_1000000_1000000_1000000_1000000_1000000_1000000_1000000,
  1_0000000_0000000_0000000_0000000_0000000_0000000_0000000_0000000_0000000_0000000_0000000_0000000_0000000_0000000_0000000_0970000_0972000_0974000_0976000_0978000_0980000_0982000_0984000_0986000_0988000_0990000_0992000_0994000_0996000_0998000_1000000_1000000_1000000_1000000_1000000_1000000_1000000_1000000_1000000_1000000_1000000_1000000_1000000_1000000_1000000_1000000_1000000_1000000_1000000_1000000_1000000_1000000_1000000_1000000_1000000_1000000_1000000_1000000_1000000_1000000_1000000_1000000_1000000_1000000_1000000_1000000_1000000_1000000_1000000_1000000_1000000_1000000_1000000_1000000_1000000_1000000_1000000_1000000_1000000_1000000_1000000_1000000_1000000_1000000_1000000_1000000_1000000_1000000_1000000_1000000_1000000_1000000_1000000_1000000_1000000_1000000_1000000_1000000_1000000_1000000_1000000_1000000_1000000_1000000_1000000_1000000_1000000_1000000_1000000_1000000_1000000_1000000_1000000_1000000_1000000_1000000_1000000_1000000_1000000_1000000_1000000_1000000_1000000_1000000_1000000_1000000_1000000_1000000_1000000_1000000_1000000_1000000_1000000_1000000_1000000_1000000_1000000_1000000_1000000_1000000_1000000_1000000_1000000_1000000_1000000_1000000_1000000_1000000_1000000_1000000_1000000_1000000_1000000_1000000_1000000_1000000_1000000_1000000_1000000_1000000_1000000_1000000_1000000_1000000_1000000_1000000_1000000_1000000_1000000_1000000_1000000_1000000_1000000_1000000_1000000_1000000_1000000_1000000_1000000_1000000_1000000_1000000_1000000_1000000_1000000_1000000_1000000,
  1_0000000_0000000_0000000_0000000_0000000_0000000_0000000_0000000_0000000_0000000_0000000_0000000_0000000_0000000_0000000_0970000_0972000_0974000_0976000_0978000_0980000_0982000_0984000_0986000_0988000_0990000_0992000_0994000_0996000_0998000_1000000_1000000_1000000_1000000_1000000_1000000_1000000_1000000_1000000_1000000_1000000_1000000_1000000_1000000_1000000_1000000_1000000_1000000_1000000_1000000_1000000_1000000_1000000_1000000_1000000_1000000_1000000_1000000_1000000_1000000_1000000_1000000_1000000_1000000_1000000_1000000_1000000_1000000_1000000_1000000_1000000_1000000_1000000_1000000_1000000_1000000_1000000_1000000_1000000_1000000_1000000_1000000_1000000_1000000_1000000_1000000_1000000_1000000_1000000_1000000_1000000_1000000_1000000_1000000_1000000_1000000_1000000_1000000_1000000_1000000_1000000_1000000_1000000_1000000_1000000_1000000_1000000_1000000_1000000_1000000_1000000_1000000_1000000_1000000_1000000_1000000_1000000_1000000_1000000_1000000_1000000_1000000_1000000_1000000_1000000_1000000_1000000_1000000_1000000_1000000_1000000_1000000_1000000_1000000_1000000_1000000_1000000_1000000_1000000_1000000_1000000_1000000_1000000_1000000_1000000_1000000_1000000_1000000_1000000_1000000_1000000_1000000_1000000_1000000_1000000_1000000_1000000_1000000_1000000_1000000_1000000_1000000_1000000_1000000_1000000_1000000_1000000_1000000_1000000_1000000_1000000_1000000_1000000_1000000_1000000_1000000_1000000_1000000_1000000_1000000_1000000_1000000_1000000_1000000_1000000_1000000_1000000_1000000,
  1_0000000_0000000_0000000_0000000_0000000_0000000_0000000_0000000_0000000_0000000_0000000_0000000_0000000_0000000_0000000_0970000_0972000_0974000_0976000_0978000_0980000_0982000_0984000_0986000_0988000_0990000_0992000_0994000_0996000_0998000_1000000_1000000_1000000_1000000_1000000_1000000_1000000_1000000_1000000_1000000_1000000_1000000_1000000_1000000_1000000_1000000_1000000_1000000_1000000_1000000_1000000_1000000_1000000_1000000_1000000_1000000_1000000_1000000_1000000_1000000_1000000_1000000_1000000_1000000_1000000_1000000_1000000_1000000_1000000_1000000_1000000_1000000_1000000_1000000_1000000_1000000_1000000_1000000_1000000_1000000_1000000_1000000_1000000_1000000_1000000_1000000_1000000_1000000_1000000_1000000_1000000_1000000_1000000_1000000_1000000_1000000_1000000_1000000_1000000_1000000_1000000_1000000_1000000_1000000_1000000_1000000_1000000_1000000_1000000_1000000_1000000_1000000_1000000_1000000_1000000_1000000_1000000_1000000_1000000_1000000_1000000_1000000_1000000_1000000_1000000_1000000_1000000_1000000_1000000_1000000_1000000_1000000_1000000_1000000_1000000_1000000_1000000_1000000_1000000_1000000_1000000_1000000_1000000_1000000_1000000_1000000_1000000_1000000_1000000_1000000_1000000_1000000_1000000_1000000_1000000_1000000_1000000_1000000_1000000_1000000_1000000_1000000_1000000_1000000_1000000_1000000_1000000_1000000_1000000_1000000_1000000_1000000_1000000_1000000_1000000_1000000_1000000_1000000_1000000_1000000_1000000_1000000_1000000_1000000_1000000_1000000_1000000_1000000_1000000,
  1_0000000_0000000_0000000_0000000_0000000_0000000_0000000_0000000_0000000_0000000_0000000_0000000_0000000_0000000_0000000_0970000_0972000_0974000_0976000_0978000_0980000_0982000_0984000_0986000_0988000_0990000_0992000_0994000_0996000_0998000_1000000_1000000_1000000_1000000_1000000_1000000_1000000_1000000_1000000_1000000_1000000_1000000_1000000_1000000_1000000_1000000_1000000_1000000_1000000_1000000_1000000_1000000_1000000_1000000_1000000_1000000_1000000_1000000_1000000_1000000_1000000_1000000_1000000_1000000_1000000_1000000_1000000_1000000_1000000_1000000_1000000_1000000_1000000_1000000_1000000_1000000_1000000_1000000_1000000_1000000_1000000_1000000_1000000_1000000_1000000_1000000_1000000_1000000_1000000_1000000_1000000_1000000_1000000_1000000_1000000_1000000_1000000_1000000_1000000_1000000_1000000_1000000_1000000_1000000_1000000_1000000_1000000_1000000_1000000_1000000_1000000_1000000_1000000_1000000_1000000_1000000_1000000_1000000_1000000_1000000_1000000_1000000_1000000_1000000_1000000_1000000_1000000_1000000_1000000_1000000_1000000_1000000_1000000_1000000_1000000_1000000_1000000_1000000_1000000_1000000_1000000_1000000_1000000_1000000_1000000_1000000_1000000_1000000_1000000_1000000_1000000_1000000_1000000_1000000_1000000_1000000_1000000_1000000_1000000_1000000_1000000_1000000_1000000_1000000_1000000_1000000_1000000_1000000_1000000_1000000_1000000_1000000_1000000_1000000_1000000_1000000_1000000_1000000_1000000_1000000_1000000_1000000_1000000_1000000_1000000_1000000_1000000_1000000_1000000_1000000,
  1_0000000_0000000_0000000_0000000_0000000_0000000_0000000_0000000_0000000_0000000_0000000_0000000_0000000_0000000_0000000_0970000_0972000_0974000_0976000_0978000_0980000_0982000_0984000_0986000_0988000_0990000_0992000_0994000_0996000_0998000_1000000_1000000_1000000_1000000_1000000_1000000_1000000_1000000_1000000_1000000_1000000_1000000_1000000_1000000_1000000_1000000_1000000_1000000_1000000_1000000_1000000_1000000_1000000_1000000_1000000_1000000_1000000_1000000_1000000_1000000_1000000_1000000_1000000_1000000_1000000_1000000_1000000_1000000_1000000_1000000_1000000_1000000_1000000_1000000_1000000_1000000_1000000_1000000_1000000_1000000_1000000_1000000_1000000_1000000_1000000_1000000_1000000_1000000_1000000_1000000_1000000_1000000_1000000_1000000_1000000_1000000_1000000_1000000_1000000_1000000_1000000_1000000_1000000_1000000_1000000_1000000_1000000_1000000_1000000_1000000_1000000_1000000_1000000_1000000_1000000_1000000_1000000_1000000_1000000_1000000_1000000_1000000_1000000_1000000_1000000_1000000_1000000_1000000_1000000_1000000_1000000_1000000_1000000_1000000_1000000_1000000_1000000_1000000_1000000_1000000_1000000_1000000_1000000_1000000_1000000_1000000_1000000_1000000_1000000_1000000_1000000_1000000_1000000_1000000_1000000_1000000_1000000_1000000_1000000_1000000_1000000_1000000_1000000_1000000_1000000_1000000_1000000_1000000_1000000_1000000_1000000_1000000_1000000_1000000_1000000_1000000_1000000_1000000_1000000_1000000_1000000_1000000_1000000_1000000_1000000_1000000_1000000_1000000_1000000_1000000_1000000,
  1_0000000_0000000_0000000_0000000_0000000_0000000_0000000_0000000_0000000_0000000_0000000_0000000_0000000_0000000_0000000_0970000_0972000_0974000_0976000_0978000_0980000_0982000_0984000_0986000_0988000_0990000_0992000_0994000_0996000_0998000_1000000_1000000_1000000_1000000_1000000_1000000_1000000_1000000_1000000_1000000_1000000_1000000_1000000_1000000_1000000_1000000_1000000_1000000_1000000_1000000_1000000_1000000_1000000_1000000_1000000_1000000_1000000_1000000_1000000_1000000_1000000_1000000_1000000_1000000_1000000_1000000_1000000_1000000_1000000_1000000_1000000_1000000_1000000_1000000_1000000_1000000_1000000_1000000_1000000_1000000_1000000_1000000_1000000_1000000_1000000_1000000_1000000_1000000_1000000_1000000_1000000_1000000_1000000_1000000_1000000_1000000_1000000_1000000_1000000_1000000_1000000_1000000_1000000_1000000_1000000_1000000_1000000_1000000_1000000_1000000_1000000_1000000_1000000_1000000_1000000_1000000_1000000_1000000_1000000_1000000_1000000_1000000_1000000_1000000_1000000_1000000_1000000_1000000_1000000_1000000_1000000_1000000_1000000_1000000_1000000_1000000_1000000_1000000_1000000_1000000_1000000_1000000_1000000_1000000_1000000_1000000_1000000_1000000_1000000_1000000_1000000_1000000_1000000_1000000_1000000_1000000_1000000_1000000_1000000_1000000_1000000_1000000_1000000_1000000_1000000_1000000_1000000_1000000_1000000_1000000_1000000_1000000_1000000_1000000_1000000_1000000_1000000_1000000_1000000_1000000_1000000_1000000_1000000_1000000_1000000_1000000_1000000_1000000_1000000_1000000_1000000_1000000,
  1_0000000_0000000_0000000_0000000_0000000_0000000_0000000_0000000_0000000_0000000_0000000_0000000_0000000_0000000_0000000_0970000_0972000_0974000_0976000_0978000_0980000_0982000_0984000_0986000_0988000_0990000_0992000_0994000_0996000_0998000_1000000_1000000_1000000_1000000_1000000_1000000_1000000_1000000_1000000_1000000_1000000_1000000_1000000_1000000_1000000_1000000_1000000_1000000_1000000_1000000_1000000_1000000_1000000_1000000_1000000_1000000_1000000_1000000_1000000_1000000_1000000_1000000_1000000_1000000_1000000_1000000_1000000_1000000_1000000_1000000_1000000_1000000_1000000_1000000_1000000_1000000_1000000_1000000_1000000_1000000_1000000_1000000_1000000_1000000_1000000_1000000_1000000_1000000_1000000_1000000_1000000_1000000_1000000_1000000_1000000_1000000_1000000_1000000_1000000_1000000_1000000_1000000_1000000_1000000_1000000_1000000_1000000_1000000_1000000_1000000_1000000_1000000_1000000_1000000_1000000_1000000_1000000_1000000_1000000_1000000_1000000_1000000_1000000_1000000_1000000_1000000_1000000_1000000_1000000_1000000_1000000_1000000_1000000_1000000_1000000_1000000_1000000_1000000_1000000_1000000_1000000_1000000_1000000_1000000_1000000_1000000_1000000_1000000_1000000_1000000_1000000_1000000_1000000_1000000_1000000_1000000_1000000_1000000_1000000_1000000_1000000_1000000_1000000_1000000_1000000_1000000_1000000_1000000_1000000_1000000_1000000_1000000_1000000_1000000_1000000_1000000_1000000_1000000_1000000_1000000_1000000_1000000_1000000_1000000_1000000_1000000_1000000_1000000_1000000_1000000_1000000_1000000_1000000,
  1_0000000_0000000_0000000_0000000_0000000_0000000_0000000_0000000_0000000_0000000_0000000_0000000_0000000_0000000_0000000_0970000_0972000_0974000_0976000_0978000_0980000_0982000_0984000_0986000_0988000_0990000_0992000_0994000_0996000_0998000_1000000_1000000_1000000_1000000_1000000_1000000_1000000_1000000_1000000_1000000_1000000_1000000_1000000_1000000_1000000_1000000_1000000_1000000_1000000_1000000_1000000_1000000_1000000_1000000_1000000_1000000_1000000_1000000_1000000_1000000_1000000_1000000_1000000_1000000_1000000_1000000_1000000_1000000_1000000_1000000_1000000_1000000_1000000_1000000_1000000_1000000_1000000_1000000_1000000_1000000_1000000_1000000_1000000_1000000_1000000_1000000_1000000_1000000_1000000_1000000_1000000_1000000_1000000_1000000_1000000_1000000_1000000_1000000_1000000_1000000_1000000_1000000_1000000_1000000_1000000_1000000_1000000_1000000_1000000_1000000_1000000_1000000_1000000_1000000_1000000_1000000_1000000_1000000_1000000_1000000_1000000_1000000_1000000_1000000_1000000_1000000_1000000_1000000_1000000_1000000_1000000_1000000_1000000_1000000_1000000_1000000_1000000_1000000_1000000_1000000_1000000_1000000_1000000_1000000_1000000_1000000_1000000_1000000_1000000_1000000_1000000_1000000_1000000_1000000_1000000_1000000_1000000_1000000_1000000_1000000_1000000_1000000_1000000_1000000_1000000_1000000_1000000_1000000_1000000_1000000_1000000_1000000_1000000_1000000_1000000_1000000_1000000_1000000_1000000_1000000_1000000_1000000_1000000_1000000_1000000_1000000_1000000_1000000_1000000_1000000_1000000_1000000_1000000_1000000,
  1_0000000_0000000_0000000_0000000_0000000_0000000_0000000_0000000_0000000_0000000_0000000_0000000_0000000_0000000_0000000_0970000_0972000_0974000_0976000_0978000_0980000_0982000_0984000_0986000_0988000_0990000_0992000_0994000_0996000_0998000_1000000_1000000_1000000_1000000_1000000_1000000_1000000_1000000_1000000_1000000_1000000_1000000_1000000_1000000_1000000_1000000_1000000_1000000_1000000_1000000_1000000_1000000_1000000_1000000_1000000_1000000_1000000_1000000_1000000_1000000_1000000_1000000_1000000_1000000_1000000_1000000_1000000_1000000_1000000_1000000_1000000_1000000_1000000_1000000_1000000_1000000_1000000_1000000_1000000_1000000_1000000_1000000_1000000_1000000_1000000_1000000_1000000_1000000_1000000_1000000_1000000_1000000_1000000_1000000_1000000_1000000_1000000_1000000_1000000_1000000_1000000_1000000_1000000_1000000_1000000_1000000_1000000_1000000_1000000_1000000_1000000_1000000_1000000_1000000_1000000_1000000_1000000_1000000_1000000_1000000_1000000_1000000_1000000_1000000_1000000_1000000_1000000_1000000_1000000_1000000_1000000_1000000_1000000_1000000_1000000_1000000_1000000_1000000_1000000_1000000_1000000_1000000_1000000_1000000_1000000_1000000_1000000_1000000_1000000_1000000_1000000_1000000_1000000_1000000_1000000_1000000_1000000_1000000_1000000_1000000_1000000_1000000_1000000_1000000_1000000_1000000_1000000_1000000_1000000_1000000_1000000_1000000_1000000_1000000_1000000_1000000_1000000_1000000_1000000_1000000_1000000_1000000_1000000_1000000_1000000_1000000_1000000_1000000_1000000_1000000_1000000_1000000_1000000_1000000_1000000,
  1_0000000_0000000_0000000_0000000_0000000_0000000_0000000_0000000_0000000_0000000_0000000_0000000_0000000_0000000_0000000_0970000_0972000_0974000_0976000_0978000_0980000_0982000_0984000_0986000_0988000_0990000_0992000_0994000_0996000_0998000_1000000_1000000_1000000_1000000_1000000_1000000_1000000_1000000_1000000_1000000_1000000_1000000_1000000_1000000_1000000_1000000_1000000_1000000_1000000_1000000_1000000_1000000_1000000_1000000_1000000_1000000_1000000_1000000_1000000_1000000_1000000_1000000_1000000_1000000_1000000_1000000_1000000_1000000_1000000_1000000_1000000_1000000_1000000_1000000_1000000_1000000_1000000_1000000_1000000_1000000_1000000_1000000_1000000_1000000_1000000_1000000_1000000_1000000_1000000_1000000_1000000_1000000_1000000_1000000_1000000_1000000_1000000_1000000_1000000_1000000_1000000_1000000_1000000_1000000_1000000_1000000_1000000_1000000_1000000_1000000_1000000_1000000_1000000_1000000_1000000_1000000_1000000_1000000_1000000_1000000_1000000_1000000_1000000_1000000_1000000_1000000_1000000_1000000_1000000_1000000_1000000_1000000_1000000_1000000_1000000_1000000_1000000_1000000_1000000_1000000_1000000_1000000_1000000_1000000_1000000_1000000_1000000_1000000_1000000_1000000_1000000_1000000_1000000_1000000_1000000_1000000_1000000_1000000_1000000_1000000_1000000_1000000_1000000_1000000_1000000_1000000_1000000_1000000_1000000_1000000_1000000_1000000_1000000_1000000_1000000_1000000_1000000_1000000_1000000_1000000_1000000_1000000_1000000_1000000_1000000_1000000_1000000_1000000_1000000_1000000_1000000_1000000_1000000_1000000_1000000_1000000,
  1_0000000_0000000_0000000_0000000_0000000_0000000_0000000_0000000_0000000_0000000_0000000_0000000_0000000_0000000_0000000_0970000_0972000_0974000_0976000_0978000_0980000_0982000_0984000_0986000_0988000_0990000_0992000_0994000_0996000_0998000_1000000_1000000_1000000_1000000_1000000_1000000_1000000_1000000_1000000_1000000_1000000_1000000_1000000_1000000_1000000_1000000_1000000_1000000_1000000_1000000_1000000_1000000_1000000_1000000_1000000_1000000_1000000_1000000_1000000_1000000_1000000_1000000_1000000_1000000_1000000_1000000_1000000_1000000_1000000_1000000_1000000_1000000_1000000_1000000_1000000_1000000_1000000_1000000_1000000_1000000_1000000_1000000_1000000_1000000_1000000_1000000_1000000_1000000_1000000_1000000_1000000_1000000_1000000_1000000_1000000_1000000_1000000_1000000_1000000_1000000_1000000_1000000_1000000_1000000_1000000_1000000_1000000_1000000_1000000_1000000_1000000_1000000_1000000_1000000_1000000_1000000_1000000_1000000_1000000_1000000_1000000_1000000_1000000_1000000_1000000_1000000_1000000_1000000_1000000_1000000_1000000_1000000_1000000_1000000_1000000_1000000_1000000_1000000_1000000_1000000_1000000_1000000_1000000_1000000_1000000_1000000_1000000_1000000_1000000_1000000_1000000_1000000_1000000_1000000_1000000_1000000_1000000_1000000_1000000_1000000_1000000_1000000_1000000_1000000_1000000_1000000_1000000_1000000_1000000_1000000_1000000_1000000_1000000_1000000_1000000_1000000_1000000_1000000_1000000_1000000_1000000_1000000_1000000_1000000_1000000_1000000_1000000_1000000_1000000_1000000_1000000_1000000_1000000_1000000_1000000_1000000_1000000,
  1_0000000_0000000_0000000_0000000_0000000_0000000_0000000_0000000_0000000_0000000_0000000_0000000_0000000_0000000_0000000_0970000_0972000_0974000_0976000_0978000_0980000_0982000_0984000_0986000_0988000_0990000_0992000_0994000_0996000_0998000_1000000_1000000_1000000_1000000_1000000_1000000_1000000_1000000_1000000_1000000_1000000_1000000_1000000_1000000_1000000_1000000_1000000_1000000_1000000_1000000_1000000_1000000_1000000_1000000_1000000_1000000_1000000_1000000_1000000_1000000_1000000_1000000_1000000_1000000_1000000_1000000_1000000_1000000_1000000_1000000_1000000_1000000_1000000_1000000_1000000_1000000_1000000_1000000_1000000_1000000_1000000_1000000_1000000_1000000_1000000_1000000_1000000_1000000_1000000_1000000_1000000_1000000_1000000_1000000_1000000_1000000_1000000_1000000_1000000_1000000_1000000_1000000_1000000_1000000_1000000_1000000_1000000_1000000_1000000_1000000_1000000_1000000_1000000_1000000_1000000_1000000_1000000_1000000_1000000_1000000_1000000_1000000_1000000_1000000_1000000_1000000_1000000_1000000_1000000_1000000_1000000_1000000_1000000_1000000_1000000_1000000_1000000_1000000_1000000_1000000_1000000_1000000_1000000_1000000_1000000_1000000_1000000_1000000_1000000_1000000_1000000_1000000_1000000_1000000_1000000_1000000_1000000_1000000_1000000_1000000_1000000_1000000_1000000_1000000_1000000_1000000_1000000_1000000_1000000_1000000_1000000_1000000_1000000_1000000_1000000_1000000_1000000_1000000_1000000_1000000_1000000_1000000_1000000_1000000_1000000_1000000_1000000_1000000_1000000_1000000_1000000_1000000_1000000_1000000_1000000_1000000_1000000_1000000,
  1_0000000_0000000_0000000_0000000_0000000_0000000_0000000_0000000_0000000_0000000_0000000_0000000_0000000_0000000_0000000_0970000_0972000_0974000_0976000_0978000_0980000_0982000_0984000_0986000_0988000_0990000_0992000_0994000_0996000_0998000_1000000_1000000_1000000_1000000_1000000_1000000_1000000_1000000_1000000_1000000_1000000_1000000_1000000_1000000_1000000_1000000_1000000_1000000_1000000_1000000_1000000_1000000_1000000_1000000_1000000_1000000_1000000_1000000_1000000_1000000_1000000_1000000_1000000_1000000_1000000_1000000_1000000_1000000_1000000_1000000_1000000_1000000_1000000_1000000_1000000_1000000_1000000_1000000_1000000_1000000_1000000_1000000_1000000_1000000_1000000_1000000_1000000_1000000_1000000_1000000_1000000_1000000_1000000_1000000_1000000_1000000_1000000_1000000_1000000_1000000_1000000_1000000_1000000_1000000_1000000_1000000_1000000_1000000_1000000_1000000_1000000_1000000_1000000_1000000_1000000_1000000_1000000_1000000_1000000_1000000_1000000_1000000_1000000_1000000_1000000_1000000_1000000_1000000_1000000_1000000_1000000_1000000_1000000_1000000_1000000_1000000_1000000_1000000_1000000_1000000_1000000_1000000_1000000_1000000_1000000_1000000_1000000_1000000_1000000_1000000_1000000_1000000_1000000_1000000_1000000_1000000_1000000_1000000_1000000_1000000_1000000_1000000_1000000_1000000_1000000_1000000_1000000_1000000_1000000_1000000_1000000_1000000_1000000_1000000_1000000_1000000_1000000_1000000_1000000_1000000_1000000_1000000_1000000_1000000_1000000_1000000_1000000_1000000_1000000_1000000_1000000_1000000_1000000_1000000_1000000_1000000_1000000_1000000_1000000,
  1_0000000_0000000_0000000_0000000_0000000_0000000_0000000_0000000_0000000_0000000_0000000_0000000_0000000_0000000_0000000_0970000_0972000_0974000_0976000_0978000_0980000_0982000_0984000_0986000_0988000_0990000_0992000_0994000_0996000_0998000_1000000_1000000_1000000_1000000_1000000_1000000_1000000_1000000_1000000_1000000_1000000_1000000_1000000_1000000_1000000_1000000_1000000_1000000_1000000_1000000_1000000_1000000_1000000_1000000_1000000_1000000_1000000_1000000_1000000_1000000_1000000_1000000_1000000_1000000_1000000_1000000_1000000_1000000_1000000_1000000_1000000_1000000_1000000_1000000_1000000_1000000_1000000_1000000_1000000_1000000_1000000_1000000_1000000_1000000_1000000_1000000_1000000_1000000_1000000_1000000_1000000_1000000_1000000_1000000_1000000_1000000_1000000_1000000_1000000_1000000_1000000_1000000_1000000_1000000_1000000_1000000_1000000_1000000_1000000_1000000_1000000_1000000_1000000_1000000_1000000_1000000_1000000_1000000_1000000_1000000_1000000_1000000_1000000_1000000_1000000_1000000_1000000_1000000_1000000_1000000_1000000_1000000_1000000_1000000_1000000_1000000_1000000_1000000_1000000_1000000_1000000_1000000_1000000_1000000_1000000_1000000_1000000_1000000_1000000_1000000_1000000_1000000_1000000_1000000_1000000_1000000_1000000_1000000_1000000_1000000_1000000_1000000_1000000_1000000_1000000_1000000_1000000_1000000_1000000_1000000_1000000_1000000_1000000_1000000_1000000_1000000_1000000_1000000_1000000_1000000_1000000_1000000_1000000_1000000_1000000_1000000_1000000_1000000_1000000_1000000_1000000_1000000_1000000_1000000_1000000_1000000_1000000_1000000_1000000_1000000,
  1_0000000_0000000_0000000_0000000_0000000_0000000_0000000_0000000_0000000_0000000_0000000_0000000_0000000_0000000_0000000_0970000_0972000_0974000_0976000_0978000_0980000_0982000_0984000_0986000_0988000_0990000_0992000_0994000_0996000_0998000_1000000_1000000_1000000_1000000_1000000_1000000_1000000_1000000_1000000_1000000_1000000_1000000_1000000_1000000_1000000_1000000_1000000_1000000_1000000_1000000_1000000_1000000_1000000_1000000_1000000_1000000_1000000_1000000_1000000_1000000_1000000_1000000_1000000_1000000_1000000_1000000_1000000_1000000_1000000_1000000_1000000_1000000_1000000_1000000_1000000_1000000_1000000_1000000_1000000_1000000_1000000_1000000_1000000_1000000_1000000_1000000_1000000_1000000_1000000_1000000_1000000_1000000_1000000_1000000_1000000_1000000_1000000_1000000_1000000_1000000_1000000_1000000_1000000_1000000_1000000_1000000_1000000_1000000_1000000_1000000_1000000_1000000_1000000_1000000_1000000_1000000_1000000_1000000_1000000_1000000_1000000_1000000_1000000_1000000_1000000_1000000_1000000_1000000_1000000_1000000_1000000_1000000_1000000_1000000_1000000_1000000_1000000_1000000_1000000_1000000_1000000_1000000_1000000_1000000_1000000_1000000_1000000_1000000_1000000_1000000_1000000_1000000_1000000_1000000_1000000_1000000_1000000_1000000_1000000_1000000_1000000_1000000_1000000_1000000_1000000_1000000_1000000_1000000_1000000_1000000_1000000_1000000_1000000_1000000_1000000_1000000_1000000_1000000_1000000_1000000_1000000_1000000_1000000_1000000_1000000_1000000_1000000_1000000_1000000_1000000_1000000_1000000_1000000_1000000_1000000_1000000_1000000_1000000_1000000_1000000_1000000]

end LCP.Kernel
