import Mathlib.Data.Nat.Notation
/- generated by tools/gentables.py -/
namespace LCP.Kernel

/-- vohl_davis_no_waals_efficiencies (src/detail/kernel_definitions/vohl_davis_no_waals_efficiencies.hpp:19-2049), one number per row
of the lower triangular matrix, seven digits per entry, in units of 1e-6; the first digit of each
number is a 1 put in front. -/
def rowsVohlDavis : List ℕ := [
  1_0000000,
  1_0000000_0000000,
  1_0000000_0000000_0021800,
  1_0000000_0000000_0014736_0024245,
  1_0000000_0000000_0009316_0019473_0025568,
  1_0000000_0000000_0010091_0015382_0023103_0026963,
  1_0000000_0000000_0011220_0015029_0020001_0024974_0026963,
  1_0000000_0000000_0011883_0015712_0019293_0022628_0025963_0026963,
  1_0000000_0000000_0012151_0016412_0020672_0022638_0024604_0026570_0026963,
  1_0000000_0000000_0000000_0016672_0020884_0023542_0024645_0025749_0026853_0026963,
  1_0000000_0000000_0000000_0017416_0022189_0026963_0026963_0026963_0026963_0026963_0026963,
  1_0000000_0000000_0000000_0017134_0022275_0027416_0029810_0029457_0029105_0028752_0028435_0028435,
  1_0000000_0000000_0000000_0016714_0022259_0027804_0033349_0032325_0031301_0030277_0029254_0028435_0028435,
  1_0000000_0000000_0000000_0000000_0021674_0027072_0032470_0034521_0033226_0031931_0030636_0029341_0028435_0028435,
  1_0000000_0000000_0000000_0000000_0021231_0026516_0031802_0037088_0035543_0033997_0032452_0030907_0029362_0028435_0028435,
  1_0000000_0000000_0000000_0000000_0020903_0026105_0031308_0036511_0038222_0036442_0034663_0032883_0031104_0029324_0028435_0028435,
  1_0000000_0000000_0000000_0000000_0020672_0025816_0030959_0036103_0041246_0039244_0037243_0035241_0033239_0031237_0029235_0028435_0028435,
  1_0000000_0000000_0000000_0000000_0000000_0025629_0030734_0035839_0040945_0042390_0040175_0037959_0035744_0033529_0031314_0029099_0028435_0028435,
  1_0000000_0000000_0000000_0000000_0000000_0025532_0030617_0035702_0040786_0045871_0043665_0041459_0039252_0037046_0034840_0032634_0030428_0029986_0029986,
  1_0000000_0000000_0000000_0000000_0000000_0026907_0032264_0037621_0042979_0048336_0049739_0047187_0044636_0042084_0039532_0036981_0034429_0031878_0031623_0031623,
  1_0000000_0000000_0000000_0000000_0000000_0028435_0034095_0039754_0045414_0051074_0056734_0053811_0050888_0047965_0045041_0042118_0039195_0036272_0033349_0033349_0033349,
  1_0000000_0000000_0000000_0000000_0000000_0000000_0036611_0043262_0049912_0056563_0063214_0064786_0061280_0057774_0054268_0050762_0047255_0043749_0040243_0037088_0037088_0037088,
  1_0000000_0000000_0000000_0000000_0000000_0000000_0041198_0049418_0057637_0065857_0074077_0082297_0077390_0072482_0067575_0062667_0057760_0052853_0047945_0043038_0039112_0039112_0039112,
  1_0000000_0000000_0000000_0000000_0000000_0000000_0043649_0053262_0062875_0072488_0082100_0091713_0093638_0087875_0082111_0076348_0070585_0064821_0059058_0053295_0047532_0043497_0043497_0043497,
  1_0000000_0000000_0000000_0000000_0000000_0000000_0048374_0061294_0074214_0087133_0100053_0112973_0125893_0117818_0109743_0101668_0093593_0085518_0077444_0069369_0061294_0053219_0048374_0048374_0048374,
  1_0000000_0000000_0000000_0000000_0000000_0000000_0000000_0065060_0080077_0095093_0110109_0125125_0140141_0142957_0133572_0124186_0114801_0105416_0096031_0086646_0077261_0067876_0058491_0053798_0053798_0053798,
  1_0000000_0000000_0000000_0000000_0000000_0000000_0000000_0073865_0095403_0116940_0138478_0160016_0181554_0203092_0189631_0176169_0162708_0149247_0135786_0122325_0108864_0095403_0081941_0068480_0063096_0063096_0063096,
  1_0000000_0000000_0000000_0000000_0000000_0000000_0000000_0080562_0106813_0133063_0159313_0185563_0211813_0238064_0242808_0226047_0209286_0192525_0175764_0159003_0142243_0125482_0108721_0091960_0075199_0070170_0070170_0070170,
  1_0000000_0000000_0000000_0000000_0000000_0000000_0000000_0082297_0117345_0152392_0187440_0222488_0257535_0292583_0327631_0305346_0283061_0260776_0238491_0216206_0193920_0171635_0149350_0127065_0104780_0082495_0078038_0078038_0078038,
  1_0000000_0000000_0000000_0000000_0000000_0000000_0000000_0000000_0121807_0162183_0202559_0242935_0283311_0323687_0364063_0371236_0345206_0319175_0293145_0267114_0241083_0215053_0189022_0162992_0136961_0110931_0084900_0082297_0082297_0082297,
  1_0000000_0000000_0000000_0000000_0000000_0000000_0000000_0000000_0135697_0180691_0225686_0270680_0315674_0360668_0405663_0450657_0420334_0390012_0359690_0329367_0299045_0268723_0238400_0208078_0177755_0147433_0117111_0086788_0086788_0086788_0086788,
  1_0000000_0000000_0000000_0001679_0024274_0062281_0128671_0208645_0274129_0332516_0383226_0422613_0460032_0490484_0515226_0539387_0556806_0560000_0560000_0560000_0560000_0559129_0554484_0541710_0524290_0503935_0488677_0475129_0467613_0475903_0520806_0626000,
  1_0000000_0000000_0000000_0002170_0026000_0068900_0136600_0217500_0286000_0346000_0395000_0436500_0472000_0505000_0529000_0551500_0572000_0580000_0580000_0580000_0580000_0580000_0576000_0578000_0556000_0544000_0529000_0515500_0508000_0507000_0526000_0582500_0712000,
  1_0000000_0000000_0000000_0002489_0027288_0073100_0143855_0225455_0297939_0359455_0408485_0451000_0485727_0518455_0544394_0565091_0584515_0597242_0600000_0600000_0600000_0600000_0600000_0593848_0598091_0576879_0564788_0555091_0543667_0542303_0548000_0576879_0645000_0798000,
  1_0000000_0000000_0000000_0002652_0027471_0077235_0150494_0232941_0310235_0371412_0422588_0465882_0501059_0531647_0559412_0580353_0599176_0614000_0620000_0620000_0620000_0620000_0620000_0619647_0615412_0612588_0598471_0586824_0582118_0574235_0577765_0590471_0628471_0708235_0884000,
  1_0000000_0000000_0000000_0002671_0026643_0080357_0156786_0240000_0322857_0384286_0437143_0480000_0516429_0546429_0575000_0597143_0614286_0629286_0637857_0640000_0640000_0640000_0640000_0640000_0637857_0637857_0629286_0620714_0610000_0609286_0606429_0614286_0634286_0680714_0772143_0970000,
  1_0000000_0000000_0000000_0002560_0024889_0081556_0161200_0247022_0333333_0398000_0452444_0495556_0532000_0562667_0589333_0613333_0630889_0646444_0656000_0660000_0660000_0660000_0660000_0660000_0660000_0656889_0659556_0648000_0643111_0636444_0637333_0639556_0651778_0679333_0733555_0836666_1056000,
  1_0000000_0000000_0000000_0002328_0022284_0080986_0163576_0253492_0340541_0410595_0466541_0511676_0548108_0580243_0605108_0629324_0648865_0662919_0673757_0678622_0680000_0680000_0680000_0680000_0680000_0679919_0677324_0678297_0670189_0665892_0663730_0666514_0673541_0690162_0725513_0786946_0901757_1142000,
  1_0000000_0000000_0000000_0001985_0018895_0078789_0164074_0259453_0347368_0423474_0480316_0527158_0564211_0596526_0622211_0645368_0666842_0680737_0693368_0698000_0700000_0700000_0700000_0700000_0700000_0700000_0699263_0698842_0697158_0692947_0689684_0691790_0696737_0708316_0729368_0772737_0840842_0967368_1228000,
  1_0000000_0000000_0000000_0001540_0014782_0075090_0162838_0264944_0353846_0436615_0494821_0543282_0581538_0613000_0640538_0662077_0683205_0699795_0711077_0717974_0719513_0720000_0720000_0720000_0720000_0720000_0720000_0719308_0719718_0717769_0716231_0714410_0720564_0727923_0743820_0769333_0820923_0895205_1033460_1314000,
  1_0000000_0000000_0000100_0001000_0010000_0070000_0160000_0270000_0360000_0450000_0510000_0560000_0600000_0630000_0660000_0680000_0700000_0720000_0730000_0740000_0740000_0740000_0740000_0740000_0740000_0740000_0740000_0740000_0740000_0740000_0740000_0740000_0740000_0750000_0760000_0780000_0810000_0870000_0950000_1100000_1400000,
  1_0000000_0000000_0000000_0003643_0026551_0083439_0169537_0273390_0364439_0450683_0514610_0563024_0602024_0631781_0658610_0679732_0697780_0716122_0729610_0739366_0744512_0745488_0746463_0747439_0748415_0749390_0750366_0751341_0752317_0753293_0754268_0755244_0756220_0758756_0767707_0779220_0801902_0836146_0899732_0994024_1177800_1490000,
  1_0000000_0000000_0000000_0005926_0040152_0096762_0179143_0278000_0369714_0453143_0520381_0568476_0606000_0635524_0659333_0680857_0697048_0713429_0729429_0738952_0748095_0750000_0751905_0753810_0755714_0757619_0759524_0761429_0763333_0765238_0767143_0769048_0770952_0772857_0777048_0785333_0798857_0824095_0862571_0930857_1040950_1256190_1580000,
  1_0000000_0000000_0000000_0007873_0051009_0109977_0188814_0283744_0375767_0457256_0527233_0576186_0611791_0641093_0662023_0682953_0697698_0712116_0727651_0738744_0748047_0753605_0756395_0759186_0761977_0764767_0767558_0770349_0773140_0775930_0778721_0781512_0784302_0787093_0789884_0794907_0802884_0818884_0846558_0889256_0963279_1090580_1335120_1670000,
  1_0000000_0000000_0000000_0009507_0059309_0123091_0198545_0290545_0382545_0462909_0535091_0586000_0618727_0646545_0666545_0684727_0699636_0712364_0725818_0738727_0747818_0756364_0760000_0763636_0767273_0770909_0774545_0778182_0781818_0785455_0789091_0792727_0796364_0800000_0803636_0807273_0812364_0820364_0839273_0869273_0916182_0996909_1142730_1414550_1760000,
  1_0000000_0000000_0000000_0010850_0065222_0136111_0208333_0298333_0390000_0470000_0541111_0592778_0626667_0652778_0672778_0688333_0702778_0713889_0725000_0738333_0747778_0756667_0762778_0767222_0771667_0776111_0780556_0785000_0789444_0793889_0798333_0802778_0807222_0811667_0816111_0820556_0825000_0829444_0837778_0860000_0892222_0943333_1031670_1197220_1494440_1850000,
  1_0000000_0000000_0000000_0011920_0068904_0149043_0218174_0307043_0397478_0476348_0546261_0600522_0636609_0660609_0680609_0693652_0706696_0716609_0726174_0737304_0747913_0756609_0764783_0770000_0775217_0780435_0785652_0790870_0796087_0801304_0806522_0811739_0816957_0822174_0827391_0832609_0837826_0842696_0846435_0855130_0881043_0915391_0970696_1067480_1253910_1574780_1940000,
  1_0000000_0000000_0000000_0012735_0070498_0161894_0228064_0316574_0404277_0483362_0552808_0609170_0648426_0669936_0689085_0700575_0711213_0720447_0728532_0737213_0748213_0756723_0765234_0772021_0777979_0783936_0789894_0795851_0801808_0807766_0813723_0819681_0825638_0831596_0837553_0843511_0849468_0855426_0860021_0863915_0873447_0902383_0938766_0998255_1104280_1312660_1655530_2030000,
  1_0000000_0000000_0000000_0013310_0070133_0174667_0238000_0326333_0412000_0491000_0560667_0618667_0662000_0680333_0697333_0709000_0717333_0725333_0732000_0738667_0748000_0757000_0765333_0773333_0780000_0786667_0793333_0800000_0806667_0813333_0820000_0826667_0833333_0840000_0846667_0853333_0860000_0866667_0873333_0877000_0881333_0894000_0924000_0962333_1026000_1142000_1373330_1736670_2120000,
  1_0000000_0000000_0000000_0013661_0067931_0187367_0251041_0336143_0420592_0499224_0569755_0628531_0670592_0692326_0707000_0718837_0724959_0731082_0736510_0741816_0748592_0757429_0765592_0773755_0781327_0788674_0796020_0803367_0810714_0818061_0825408_0832755_0840102_0847449_0854796_0862143_0869490_0876837_0884184_0891531_0893653_0898694_0914857_0946898_0986082_1053920_1180590_1435820_1818160_2210000,
  1_0000000_0000000_0001880_0013800_0064000_0200000_0264000_0346000_0430000_0508000_0580000_0636000_0680000_0706000_0718000_0730000_0734000_0738000_0742000_0746000_0750000_0758000_0766000_0774000_0782000_0790000_0798000_0806000_0814000_0822000_0830000_0838000_0846000_0854000_0862000_0870000_0878000_0886000_0894000_0902000_0910000_0910000_0916000_0936000_0970000_1010000_1082000_1220000_1500000_1900000_2300000,
  1_0000000_0000000_0002892_0020080_0071190_0204524_0277353_0355714_0437899_0512899_0580126_0635700_0680714_0712437_0725042_0737101_0743656_0747857_0752059_0756261_0760462_0766513_0773796_0781106_0788950_0796359_0803641_0810924_0818207_0825490_0832773_0840056_0847339_0854622_0861905_0869188_0876471_0883753_0891036_0898740_0906583_0913081_0914202_0922577_0945196_0977899_1019500_1100170_1252940_1547340_1946640_2350000,
  1_0000000_0000000_0003791_0024967_0078791_0209560_0290220_0366044_0447143_0518571_0582088_0636813_0682308_0718571_0731758_0744176_0753187_0757582_0761978_0766374_0770769_0775604_0782198_0788791_0796044_0803407_0810000_0816593_0823187_0829780_0836374_0842967_0849560_0856154_0862747_0869341_0875934_0882527_0889121_0895714_0903407_0911099_0916593_0919560_0929451_0953846_0985165_1030660_1119670_1286810_1594510_1993410_2400000,
  1_0000000_0000000_0004584_0028540_0086779_0215081_0302628_0376954_0457655_0525040_0585782_0639259_0684730_0719232_0738167_0751226_0762601_0767183_0771766_0776348_0780930_0785512_0791173_0797102_0803275_0810822_0817035_0822965_0828895_0834825_0840755_0846685_0852615_0858544_0864474_0870404_0876334_0882264_0888194_0894124_0900458_0908005_0915553_0920512_0925822_0936604_0961981_0991833_1043400_1140430_1321560_1641510_2040300_2450000,
  1_0000000_0000000_0005277_0030873_0098069_0221058_0314603_0388413_0467778_0532857_0591111_0642963_0686349_0720741_0744286_0758254_0770423_0776667_0781429_0786190_0790952_0795714_0800688_0805979_0811270_0818042_0824709_0830000_0835291_0840582_0845873_0851164_0856455_0861746_0867037_0872328_0877619_0882910_0888201_0893492_0898783_0905132_0912540_0919947_0924815_0932381_0945291_0969630_0997937_1057620_1166670_1357140_1688360_2087300_2500000,
  1_0000000_0000000_0005875_0032032_0109591_0227468_0326169_0400390_0477792_0541948_0597987_0647857_0688377_0723052_0750130_0764935_0777467_0786039_0790974_0795909_0800844_0805779_0810714_0815390_0820065_0825390_0832662_0837662_0842338_0847013_0851688_0856364_0861039_0865714_0870390_0875065_0879740_0884416_0889091_0893766_0898442_0903117_0909740_0917013_0924286_0929481_0939221_0954221_0976818_1003510_1073250_1196100_1393510_1735060_2134420_2550000,
  1_0000000_0000000_0006384_0032082_0119633_0234286_0337347_0412857_0488367_0552245_0606327_0652245_0691633_0726122_0755714_0771020_0784490_0795306_0800408_0805510_0810612_0815714_0820816_0825306_0829388_0833469_0840000_0845918_0850000_0854082_0858163_0862245_0866327_0870408_0874490_0878571_0882653_0886735_0890816_0894898_0898980_0903061_0907143_0914286_0921429_0928367_0934490_0946327_0962653_0983571_1008570_1090200_1226530_1430610_1781630_2181630_2600000,
  1_0000000_0000000_0006807_0031079_0128272_0241491_0348158_0425351_0499474_0563684_0616053_0658158_0696053_0729912_0757982_0776842_0791491_0803772_0809737_0815000_0820263_0825526_0830790_0835702_0839211_0842719_0847456_0854474_0858246_0861754_0865263_0868772_0872281_0875789_0879298_0882807_0886316_0889825_0893333_0896842_0900351_0903860_0907368_0911754_0918772_0925789_0932807_0939825_0953684_0970614_0990351_1013160_1108420_1257890_1468420_1828070_2228950_2650000,
  1_0000000_0000000_0007150_0029079_0135581_0249064_0358621_0437438_0511084_0576207_0625468_0665517_0701576_0734089_0760985_0782414_0798473_0810788_0818966_0824384_0829803_0835222_0840640_0846059_0849507_0852463_0855419_0861921_0867044_0870000_0872956_0875911_0878867_0881823_0884778_0887734_0890690_0893645_0896601_0899557_0902512_0905468_0908424_0911379_0916305_0923202_0930099_0937586_0946503_0961281_0978128_0996601_1017290_1127830_1290150_1506900_1874380_2276350_2700000,
  1_0000000_0000000_0007416_0026132_0141628_0256985_0368753_0449140_0523172_0589758_0635763_0674249_0708148_0738172_0764685_0787748_0804455_0817785_0828099_0833668_0839237_0844806_0850375_0855944_0860254_0862676_0865097_0869479_0876259_0878789_0881211_0883632_0886053_0888475_0890896_0893317_0895738_0898160_0900581_0903002_0905424_0907845_0910266_0912688_0915109_0920799_0927579_0934358_0942688_0953608_0969104_0985218_1002350_1020990_1148380_1323240_1546010_1920580_2323850_2750000,
  1_0000000_0000000_0007610_0022286_0146476_0265238_0378571_0460476_0535714_0604286_0647143_0684286_0715714_0743333_0769048_0792857_0810000_0824762_0837143_0842857_0848571_0854286_0860000_0865714_0871429_0873333_0875238_0877143_0883810_0888095_0890000_0891905_0893809_0895714_0897619_0899524_0901429_0903333_0905238_0907143_0909048_0910952_0912857_0914762_0916667_0918571_0925238_0931905_0938571_0948095_0960952_0977143_0991905_1007620_1024290_1170000_1357140_1585710_1966670_2371430_2800000,
  1_0000000_0000000_0007734_0023430_0150184_0273806_0385281_0471464_0548688_0615667_0659555_0695562_0723665_0749520_0774040_0796522_0815316_0831721_0844133_0851955_0857810_0863665_0869520_0875375_0881230_0884415_0885820_0887225_0891464_0897892_0899297_0900703_0902108_0903513_0904918_0906323_0907728_0909133_0910539_0911944_0913349_0914754_0916159_0917564_0918970_0920375_0923068_0929625_0936183_0943489_0953794_0968525_0984859_0998208_1012440_1040890_1192650_1391800_1633260_2012650_2419090_2850000,
  1_0000000_0000000_0007793_0024475_0152806_0282673_0392350_0482120_0562074_0627512_0672949_0708018_0732903_0756682_0779631_0800829_0820415_0838387_0851106_0860968_0866958_0872949_0878940_0884931_0890922_0895899_0896820_0897742_0899217_0905668_0909078_0910000_0910922_0911843_0912765_0913687_0914608_0915530_0916452_0917373_0918295_0919217_0920138_0921060_0921982_0922903_0923825_0927512_0933963_0940415_0948710_0959770_0976313_0992166_1004150_1016820_1058660_1216270_1427190_1680650_2058530_2466820_2900000,
  1_0000000_0000000_0007789_0025426_0154396_0291825_0399762_0492460_0575850_0639796_0687279_0721293_0743367_0764773_0785635_0805748_0825306_0843673_0858061_0869898_0876020_0882143_0888265_0894388_0900510_0906633_0908220_0908673_0909127_0913413_0919320_0919773_0920227_0920680_0921134_0921587_0922041_0922494_0922948_0923401_0923855_0924308_0924762_0925215_0925669_0926122_0926576_0927029_0931905_0938254_0944603_0954218_0966168_0984308_0999082_1009740_1020790_1077550_1240820_1463260_1727890_2104310_2514630_2950000,
  1_0000000_0000000_0007725_0026287_0155000_0301250_0407500_0502500_0590000_0652500_0702500_0733750_0755000_0773750_0792500_0811250_0830000_0848750_0865000_0877500_0885000_0891250_0897500_0903750_0910000_0916250_0920000_0920000_0920000_0921250_0927500_0930000_0930000_0930000_0930000_0930000_0930000_0930000_0930000_0930000_0930000_0930000_0930000_0930000_0930000_0930000_0930000_0930000_0930000_0936250_0942500_0948750_0960000_0973750_0992500_1005630_1015000_1024370_1097500_1266250_1500000_1775000_2150000_2562500_3000000,
  1_0000000_0000000_0010318_0036730_0160564_0310256_0413641_0507179_0590872_0654103_0706820_0736769_0759538_0778000_0796051_0813949_0831590_0849231_0866154_0878051_0886974_0892923_0898872_0904872_0911026_0917180_0923333_0923333_0923333_0923333_0927641_0932667_0932667_0932667_0932667_0932667_0932667_0932667_0932667_0932667_0932872_0933077_0933282_0933333_0933333_0933333_0933436_0933641_0933846_0935436_0941180_0947179_0953333_0965231_0979282_0996923_1008100_1017130_1026150_1117640_1291590_1543080_1833330_2206670_2623590_3066670,
  1_0000000_0000000_0012435_0046459_0166121_0319697_0420303_0512667_0592667_0656303_0711535_0740222_0764182_0782364_0799899_0817152_0833717_0850283_0866848_0878950_0889131_0894788_0900444_0906101_0912121_0918182_0924242_0926667_0926667_0926667_0928242_0933495_0935333_0935333_0935333_0935333_0935333_0935333_0935333_0935333_0935495_0935899_0936303_0936667_0936667_0936667_0936667_0936990_0937394_0937798_0940626_0945879_0951818_0958929_0970242_0984444_1001010_1010490_1019170_1027860_1138730_1317720_1587680_1891520_2263230_2684850_3133330,
  1_0000000_0000000_0014098_0055507_0171672_0328090_0427463_0518925_0595343_0659075_0715194_0744090_0768925_0786836_0804030_0820746_0836358_0851881_0867403_0880179_0890925_0896836_0902209_0907582_0913284_0919254_0925224_0930000_0930000_0930000_0930000_0934060_0938000_0938000_0938000_0938000_0938000_0938000_0938000_0938000_0938000_0938478_0939075_0939672_0940000_0940000_0940000_0940060_0940657_0941254_0941851_0945582_0950448_0956418_0964298_0975045_0989254_1004420_1012780_1021130_1029490_1160720_1347160_1633730_1949550_2319700_2746270_3200000,
  1_0000000_0000000_0015326_0063903_0177216_0333686_0435098_0525922_0598863_0662392_0716510_0748353_0773765_0791412_0808431_0824510_0839490_0854000_0868510_0881725_0891922_0899059_0904157_0909255_0914510_0920392_0926275_0932157_0933333_0933333_0933333_0935059_0939373_0940667_0940667_0940667_0940667_0940667_0940667_0940667_0940667_0940824_0941608_0942392_0943176_0943333_0943333_0943333_0943647_0944431_0945216_0946000_0950314_0955098_0960980_0969451_0979647_0993725_1006940_1014980_1023020_1031060_1183570_1383140_1681180_2007450_2376080_2807840_3266670,
  1_0000000_0000000_0016139_0071675_0182754_0339275_0443188_0533623_0603188_0666232_0718406_0752995_0778116_0796087_0813092_0828551_0843092_0856618_0870145_0883575_0893237_0901449_0906280_0911111_0915942_0921594_0927391_0933188_0936667_0936667_0936667_0936667_0940338_0943333_0943333_0943333_0943333_0943333_0943333_0943333_0943333_0943333_0943913_0944879_0945845_0946667_0946667_0946667_0946667_0947343_0948309_0949275_0950966_0954831_0959710_0965507_0974396_0984348_0997874_1009370_1017100_1024830_1032560_1207250_1420770_1729950_2065220_2432370_2869570_3333330,
  1_0000000_0000000_0016554_0078851_0188286_0344857_0451714_0542000_0608286_0670571_0720857_0758000_0782000_0800857_0818000_0832857_0847143_0859714_0872286_0884857_0894857_0904000_0908571_0913143_0917714_0922857_0928571_0934286_0940000_0940000_0940000_0940000_0941714_0945143_0946000_0946000_0946000_0946000_0946000_0946000_0946000_0946000_0946000_0947143_0948286_0949429_0950000_0950000_0950000_0950000_0951143_0952286_0953429_0955714_0959143_0964286_0970000_0979143_0989143_1001710_1011710_1019140_1026570_1034000_1231710_1460000_1780000_2122860_2488570_2931430_3400000,
  1_0000000_0000000_0016589_0085456_0193812_0350432_0460657_0548545_0614122_0675390_0723840_0763352_0786263_0805718_0822620_0837418_0851624_0863268_0874911_0886554_0896770_0905408_0911023_0915343_0919662_0924178_0929812_0935446_0941080_0943333_0943333_0943333_0943484_0946488_0948667_0948667_0948667_0948667_0948667_0948667_0948667_0948667_0948667_0949193_0950507_0951822_0953136_0953333_0953333_0953333_0953728_0955042_0956357_0957671_0960254_0963258_0968826_0975061_0983700_0993615_1005260_1013970_1021110_1028240_1054870_1256940_1500750_1831270_2180380_2544690_2993430_3466670,
  1_0000000_0000000_0016258_0091513_0199333_0356000_0470000_0555556_0620667_0680667_0727333_0769037_0790889_0810667_0827333_0842222_0855926_0867259_0878000_0888741_0898963_0907111_0913630_0917704_0921778_0925852_0931111_0936667_0942222_0946667_0946667_0946667_0946667_0948222_0950815_0951333_0951333_0951333_0951333_0951333_0951333_0951333_0951333_0951333_0952519_0954000_0955482_0956667_0956667_0956667_0956667_0957556_0959037_0960519_0962000_0964593_0967778_0973333_0979926_0988074_0997778_1008520_1016150_1023000_1029850_1076590_1282890_1542960_1883700_2237780_2600740_3055550_3533330,
  1_0000000_0000000_0015577_0097045_0204849_0361562_0479726_0563014_0627890_0684877_0731315_0775041_0795863_0815699_0832137_0847260_0860411_0871671_0881534_0891397_0901260_0909096_0916384_0920219_0924055_0927890_0932466_0937945_0943425_0948904_0950000_0950000_0950000_0950329_0952521_0954000_0954000_0954000_0954000_0954000_0954000_0954000_0954000_0954000_0954329_0955973_0957616_0959260_0960000_0960000_0960000_0960000_0961479_0963123_0964767_0966548_0968740_0972329_0977808_0984603_0992274_1001640_1011510_1018250_1024820_1031400_1099120_1309530_1586580_1937260_2295070_2656710_3117810_3600000,
  1_0000000_0000000_0014560_0102074_0210360_0367117_0489820_0570901_0635766_0689820_0735766_0779009_0801171_0820811_0837027_0852522_0865135_0876486_0885495_0894504_0903514_0911351_0918559_0922883_0926486_0930090_0933874_0939279_0944685_0950090_0953333_0953333_0953333_0953333_0954595_0956396_0956667_0956667_0956667_0956667_0956667_0956667_0956667_0956667_0956667_0957748_0959550_0961351_0963153_0963333_0963333_0963333_0963694_0965496_0967297_0969099_0970901_0972703_0976847_0982252_0989099_0996306_1005220_1013960_1020270_1026580_1032880_1122430_1336850_1631530_1991890_2352250_2712610_3180180_3666670,
  1_0000000_0000000_0013221_0106619_0215867_0372667_0500267_0579200_0644267_0695467_0740667_0782267_0806800_0825644_0842000_0858000_0870089_0881689_0889867_0898044_0906222_0913867_0920622_0925689_0929067_0932444_0935822_0940667_0946000_0951333_0956667_0956667_0956667_0956667_0957022_0958444_0959333_0959333_0959333_0959333_0959333_0959333_0959333_0959333_0959333_0959333_0961289_0963244_0965200_0966667_0966667_0966667_0966667_0967644_0969600_0971556_0973511_0975067_0976489_0981333_0986667_0993422_1000360_1008530_1016180_1022220_1028270_1034310_1146490_1364800_1677780_2047550_2409330_2768440_3242670_3733330,
  1_0000000_0000000_0011573_0110699_0221368_0378211_0511053_0587895_0653368_0701789_0746000_0786000_0812737_0830632_0847053_0862842_0875263_0886842_0894632_0902000_0909368_0916632_0922947_0928632_0931789_0934947_0938105_0942105_0947368_0952632_0957895_0960000_0960000_0960000_0960000_0960842_0961895_0962000_0962000_0962000_0962000_0962000_0962000_0962000_0962000_0962000_0962842_0964947_0967053_0969158_0970000_0970000_0970000_0970000_0971684_0973790_0975895_0978000_0979053_0980526_0985789_0991263_0997579_1004210_1011580_1018320_1024100_1029890_1035680_1171260_1393370_1725260_2104210_2466320_2824210_3305260_3800000,
  1_0000000_0000000_0009626_0114333_0226866_0383749_0522165_0596970_0663048_0708762_0751749_0790190_0818970_0835939_0852182_0867766_0880649_0891732_0899775_0906355_0912935_0919515_0925524_0931411_0934649_0937593_0940537_0943593_0948788_0953983_0959177_0963333_0963333_0963333_0963333_0963576_0964268_0964667_0964667_0964667_0964667_0964667_0964667_0964667_0964667_0964667_0964667_0966468_0968719_0970970_0973221_0973333_0973333_0973333_0973558_0975810_0978061_0980312_0982173_0982866_0985022_0990216_0995688_1001580_1007790_1014370_1020380_1025920_1031460_1037000_1196730_1422530_1773940_2161820_2523200_2879910_3367960_3866670,
  1_0000000_0000000_0007394_0117537_0232359_0389282_0533590_0606410_0673282_0716359_0757897_0794820_0825487_0841556_0857385_0872769_0886239_0896838_0905282_0911094_0916906_0922718_0928342_0933812_0937641_0940376_0943111_0945846_0950256_0955385_0960513_0965641_0966667_0966667_0966667_0966667_0966974_0967316_0967333_0967333_0967333_0967333_0967333_0967333_0967333_0967333_0967333_0967812_0970205_0972598_0974992_0976667_0976667_0976667_0976667_0977624_0980017_0982410_0984803_0986171_0986513_0989487_0994615_0999949_1005420_1011110_1016920_1022380_1027680_1032970_1038270_1222850_1452260_1823760_2220340_2580000_2935550_3430770_3933330,
  1_0000000_0000000_0004886_0120329_0237848_0394810_0545316_0616203_0684051_0724557_0764430_0799873_0832278_0847468_0862658_0877848_0892025_0902152_0911139_0916203_0921266_0926329_0931392_0936456_0940759_0943291_0945823_0948354_0951772_0956835_0961899_0966962_0970000_0970000_0970000_0970000_0970000_0970000_0970000_0970000_0970000_0970000_0970000_0970000_0970000_0970000_0970000_0970000_0971519_0974051_0976582_0979114_0980000_0980000_0980000_0980000_0981772_0984304_0986835_0989367_0990000_0990000_0993924_0998987_1004050_1009110_1014180_1019240_1024300_1029370_1034430_1039490_1249620_1482530_1874680_2279750_2636710_2991140_3493670_4000000,
  1_0000000_0000000_0003810_0122857_0241905_0395238_0548571_0617381_0686190_0725714_0765238_0799524_0833809_0848571_0863333_0877857_0892381_0902143_0911905_0916905_0921905_0926786_0931667_0936548_0941429_0944048_0946667_0949286_0951905_0956905_0961905_0966667_0971429_0971429_0971429_0971429_0971429_0971429_0971429_0971429_0971429_0971429_0971429_0971429_0971429_0971429_0971429_0971429_0971429_0973810_0976191_0978571_0980952_0980952_0980952_0980952_0980952_0983333_0985714_0988095_0990476_0990476_0990476_0995238_1000000_1004760_1009520_1014290_1019050_1023810_1028570_1033330_1038090_1257140_1476190_1857140_2238100_2571430_2904760_3380950_3857140,
  1_0000000_0000000_0000000_0125118_0247681_0396114_0545908_0618918_0685703_0727090_0765655_0799488_0832645_0849812_0864156_0878113_0891987_0902287_0911693_0917637_0922575_0927337_0932040_0936743_0941446_0944750_0947454_0950159_0952863_0957019_0961958_0966602_0971070_0972857_0972857_0972857_0972857_0972857_0972857_0972857_0972857_0972857_0972857_0972857_0972857_0972857_0972857_0972857_0972857_0973751_0975985_0978219_0980453_0981905_0981905_0981905_0981905_0982575_0984809_0987043_0989277_0990952_0990952_0991958_0996426_1000890_1005360_1009830_1014300_1018760_1023230_1027700_1032170_1056740_1262270_1479190_1836630_2191830_2504590_2820690_3267490_3714290,
  1_0000000_0000000_0000000_0127122_0253115_0397422_0543763_0620801_0685610_0728676_0766307_0799756_0831812_0851185_0865122_0878606_0891847_0902578_0911638_0918397_0923275_0927979_0932509_0937038_0941568_0945401_0948188_0950976_0953763_0957178_0962056_0966760_0970941_0974286_0974286_0974286_0974286_0974286_0974286_0974286_0974286_0974286_0974286_0974286_0974286_0974286_0974286_0974286_0974286_0974286_0975958_0978049_0980139_0982230_0982857_0982857_0982857_0982857_0984112_0986202_0988293_0990383_0991429_0991429_0993310_0997491_1001670_1005850_1010040_1014220_1018400_1022580_1026760_1030940_1072750_1265090_1478750_1813240_2143550_2436240_2735190_3153310_3571430,
  1_0000000_0000000_0000000_0128878_0258218_0399145_0542117_0623018_0685898_0730465_0767183_0800316_0831297_0852685_0866225_0879329_0891951_0903012_0911733_0919185_0924005_0928709_0933069_0937430_0941790_0946001_0948870_0951738_0954607_0957476_0962197_0967017_0971033_0974934_0975714_0975714_0975714_0975714_0975714_0975714_0975714_0975714_0975714_0975714_0975714_0975714_0975714_0975714_0975714_0975714_0976104_0978055_0980006_0981956_0983810_0983810_0983810_0983810_0983810_0985565_0987516_0989466_0991417_0991905_0991905_0994538_0998439_1002340_1006240_1010140_1014050_1017950_1021850_1025750_1029650_1086220_1265680_1474990_1787090_2093340_2366440_2648310_3038440_3428570,
  1_0000000_0000000_0000000_0130395_0263002_0401270_0540952_0625556_0686553_0732449_0768277_0801156_0831088_0854308_0867460_0880272_0892290_0903583_0911973_0920000_0924762_0929524_0933719_0937914_0942109_0946304_0949501_0952449_0955397_0958345_0962381_0967143_0971338_0974966_0977143_0977143_0977143_0977143_0977143_0977143_0977143_0977143_0977143_0977143_0977143_0977143_0977143_0977143_0977143_0977143_0977143_0978231_0980045_0981859_0983673_0984762_0984762_0984762_0984762_0985125_0986939_0988753_0990567_0992381_0992381_0992381_0995646_0999274_1002900_1006530_1010160_1013790_1017420_1021040_1024670_1028300_1097230_1264130_1468030_1758280_2041270_2295240_2560090_2922900_3285710,
  1_0000000_0000000_0000000_0131681_0267479_0403781_0540252_0628403_0687563_0734622_0769580_0802269_0831176_0856050_0868824_0881429_0892857_0904286_0912353_0920420_0925546_0930252_0934454_0938487_0942521_0946555_0950084_0953109_0956134_0959160_0962605_0967311_0971849_0975210_0978571_0978571_0978571_0978571_0978571_0978571_0978571_0978571_0978571_0978571_0978571_0978571_0978571_0978571_0978571_0978571_0978571_0978571_0980252_0981933_0983613_0985294_0985714_0985714_0985714_0985714_0986555_0988235_0989916_0991597_0992857_0992857_0993277_0996639_1000000_1003360_1006720_1010080_1013450_1016810_1020170_1023530_1026890_1105880_1260500_1457980_1726890_1987400_2222690_2470590_2806720_3142860,
  1_0000000_0000000_0000000_0132744_0271659_0406667_0540000_0631550_0688915_0736977_0771085_0803643_0831550_0857907_0870310_0882713_0893643_0904496_0912868_0920620_0926357_0931008_0935271_0939147_0943023_0946899_0950620_0953721_0956822_0959922_0963023_0967519_0972171_0975659_0978760_0980000_0980000_0980000_0980000_0980000_0980000_0980000_0980000_0980000_0980000_0980000_0980000_0980000_0980000_0980000_0980000_0980000_0980620_0982171_0983721_0985271_0986667_0986667_0986667_0986667_0986667_0987907_0989457_0991008_0992558_0993333_0993333_0994419_0997519_1000620_1003720_1006820_1009920_1013020_1016120_1019230_1022330_1025430_1112250_1254880_1444960_1693020_1931780_2148840_2379840_2689920_3000000,
  1_0000000_0000000_0000000_0133593_0275552_0409912_0540181_0634986_0690597_0739507_0772786_0805271_0832200_0859130_0871916_0883957_0894641_0904932_0913514_0920958_0927192_0931790_0936169_0939891_0943612_0947334_0951056_0954286_0957460_0960635_0963810_0967767_0972365_0976305_0979152_0981429_0981429_0981429_0981429_0981429_0981429_0981429_0981429_0981429_0981429_0981429_0981429_0981429_0981429_0981429_0981429_0981429_0981429_0982567_0983990_0985413_0986836_0987619_0987619_0987619_0987619_0987761_0989184_0990608_0992031_0993454_0993810_0993810_0995446_0998292_1001140_1003990_1006830_1009680_1012520_1015370_1018220_1021060_1023910_1116410_1247330_1429060_1656760_1874490_2073730_2287900_2572520_2857140,
  1_0000000_0000000_0000000_0134234_0279169_0413506_0540779_0638701_0692597_0742208_0774675_0807143_0833117_0859091_0873636_0885325_0895844_0905584_0914286_0921429_0928052_0932597_0937143_0940714_0944286_0947857_0951429_0954805_0958052_0961299_0964545_0968052_0972597_0977143_0979740_0982338_0982857_0982857_0982857_0982857_0982857_0982857_0982857_0982857_0982857_0982857_0982857_0982857_0982857_0982857_0982857_0982857_0982857_0983117_0984416_0985714_0987013_0988312_0988571_0988571_0988571_0988571_0989091_0990390_0991688_0992987_0994286_0994286_0994286_0996364_0998961_1001560_1004160_1006750_1009350_1011950_1014540_1017140_1019740_1022340_1118440_1237920_1410390_1618180_1815590_1997400_2194800_2454550_2714290,
  1_0000000_0000000_0000000_0134674_0282518_0417437_0541782_0642686_0694906_0745072_0776747_0808422_0834291_0859331_0875468_0886811_0897245_0906447_0915179_0922028_0928876_0933430_0937924_0941616_0945040_0948464_0951889_0955281_0958598_0961915_0965233_0968550_0972868_0977362_0980519_0982873_0984286_0984286_0984286_0984286_0984286_0984286_0984286_0984286_0984286_0984286_0984286_0984286_0984286_0984286_0984286_0984286_0984286_0984286_0984992_0986169_0987346_0988523_0989524_0989524_0989524_0989524_0989524_0990348_0991525_0992702_0993879_0994762_0994762_0994821_0997175_0999529_1001880_1004240_1006590_1008950_1011300_1013650_1016010_1018360_1020720_1118420_1226710_1389030_1577370_1755110_1919900_2100590_2336010_2571430,
  1_0000000_0000000_0000000_0134921_0285608_0421693_0543175_0646931_0697513_0748095_0778995_0809894_0835714_0859841_0877407_0888413_0898836_0907513_0916190_0922751_0929312_0934286_0938730_0942593_0945873_0949153_0952434_0955714_0959101_0962487_0965873_0969259_0973175_0977619_0981481_0983598_0985714_0985714_0985714_0985714_0985714_0985714_0985714_0985714_0985714_0985714_0985714_0985714_0985714_0985714_0985714_0985714_0985714_0985714_0985714_0986772_0987831_0988889_0989947_0990476_0990476_0990476_0990476_0990476_0991534_0992593_0993651_0994709_0995238_0995238_0995767_0997884_1000000_1002120_1004230_1006350_1008470_1010580_1012700_1014810_1016930_1019050_1116400_1213760_1365080_1534390_1693120_1841270_2005290_2216930_2428570,
  1_0000000_0000000_0000000_0134980_0288449_0426264_0544945_0651429_0700408_0749388_0781413_0811554_0837378_0860612_0879451_0890126_0900612_0908776_0916939_0923595_0929874_0935165_0939560_0943642_0946782_0949921_0953061_0956201_0959560_0963014_0966468_0969922_0973516_0977912_0982308_0984505_0986389_0987143_0987143_0987143_0987143_0987143_0987143_0987143_0987143_0987143_0987143_0987143_0987143_0987143_0987143_0987143_0987143_0987143_0987143_0987520_0988462_0989403_0990345_0991287_0991429_0991429_0991429_0991429_0991711_0992653_0993595_0994537_0995479_0995714_0995714_0996609_0998493_1000380_1002260_1004140_1006030_1007910_1009800_1011680_1013560_1015450_1025810_1112470_1199120_1338620_1489330_1629670_1761540_1908950_2097330_2285710,
  1_0000000_0000000_0000000_0134857_0291048_0431139_0547081_0656170_0703582_0750994_0783996_0813395_0839275_0861636_0881594_0891946_0902298_0910228_0917888_0924555_0930559_0936066_0940414_0944762_0947764_0950766_0953768_0956770_0959979_0963499_0967019_0970538_0974058_0978240_0982588_0985590_0987246_0988571_0988571_0988571_0988571_0988571_0988571_0988571_0988571_0988571_0988571_0988571_0988571_0988571_0988571_0988571_0988571_0988571_0988571_0988571_0989234_0990062_0990890_0991718_0992381_0992381_0992381_0992381_0992381_0992878_0993706_0994534_0995362_0996190_0996190_0996190_0997350_0999006_1000660_1002320_1003980_1005630_1007290_1008940_1010600_1012260_1013910_1030480_1106670_1182860_1309730_1442240_1564800_1680750_1811590_1977220_2142860,
  1_0000000_0000000_0000000_0134559_0293412_0436308_0549570_0661147_0707025_0752903_0786738_0815412_0841398_0862903_0883835_0893871_0903907_0911864_0919032_0925627_0931362_0936989_0941290_0945591_0948817_0951685_0954552_0957419_0960358_0963943_0967527_0971111_0974695_0978602_0982903_0986846_0988280_0989713_0990000_0990000_0990000_0990000_0990000_0990000_0990000_0990000_0990000_0990000_0990000_0990000_0990000_0990000_0990000_0990000_0990000_0990000_0990143_0990860_0991577_0992294_0993011_0993333_0993333_0993333_0993333_0993333_0993979_0994695_0995412_0996129_0996667_0996667_0996667_0997993_0999427_1000860_1002290_1003730_1005160_1006600_1008030_1009460_1010900_1012330_1033120_1099070_1165020_1278490_1393190_1498570_1598920_1713260_1856630_2000000,
  1_0000000_0000000_0000000_0134091_0295550_0441763_0552401_0663040_0710729_0755106_0789635_0817599_0843739_0864407_0885076_0895897_0905623_0913678_0920365_0926808_0932280_0937751_0942189_0946444_0949939_0952675_0955410_0958146_0960881_0964347_0967994_0971641_0975289_0978997_0983252_0987508_0989483_0990699_0991429_0991429_0991429_0991429_0991429_0991429_0991429_0991429_0991429_0991429_0991429_0991429_0991429_0991429_0991429_0991429_0991429_0991429_0991429_0991793_0992401_0993009_0993617_0994225_0994286_0994286_0994286_0994286_0994407_0995015_0995623_0996231_0996839_0997143_0997143_0997325_0998541_0999757_1000970_1002190_1003400_1004620_1005840_1007050_1008270_1009480_1010700_1033800_1089730_1147720_1244980_1342250_1431000_1516110_1613980_1735560_1857140,
  1_0000000_0000000_0000000_0133459_0297469_0447494_0555564_0663634_0714687_0757594_0792682_0819950_0846291_0866140_0885990_0898020_0907444_0915664_0921880_0928095_0933308_0938521_0943108_0947318_0951128_0953734_0956341_0958947_0961554_0964712_0968421_0972130_0975840_0979549_0983634_0987845_0990852_0991855_0992857_0992857_0992857_0992857_0992857_0992857_0992857_0992857_0992857_0992857_0992857_0992857_0992857_0992857_0992857_0992857_0992857_0992857_0992857_0992857_0993358_0993860_0994361_0994862_0995238_0995238_0995238_0995238_0995238_0995489_0995990_0996491_0996992_0997494_0997619_0997619_0997995_0998998_1000000_1001000_1002000_1003010_1004010_1005010_1006010_1007020_1008020_1009020_1032580_1078700_1129070_1209270_1289470_1362150_1432330_1513780_1614040_1714290,
  1_0000000_0000000_0000000_0132667_0299175_0453492_0559048_0664603_0718889_0760357_0795873_0822460_0849048_0868095_0887143_0900238_0909365_0917817_0923571_0929325_0934444_0939405_0944048_0948214_0952381_0954861_0957341_0959821_0962302_0965040_0968810_0972579_0976349_0980119_0984048_0988214_0992381_0993175_0993968_0994286_0994286_0994286_0994286_0994286_0994286_0994286_0994286_0994286_0994286_0994286_0994286_0994286_0994286_0994286_0994286_0994286_0994286_0994286_0994444_0994841_0995238_0995635_0996032_0996190_0996190_0996190_0996190_0996190_0996508_0996905_0997302_0997698_0998095_0998095_0998095_0998571_0999365_1000160_1000950_1001750_1002540_1003330_1004130_1004920_1005710_1006510_1007300_1029520_1066030_1107940_1171430_1234920_1292060_1347620_1412700_1492060_1571430,
  1_0000000_0000000_0000000_0131720_0300675_0459750_0562842_0665935_0723328_0763387_0799205_0825125_0851046_0870265_0888527_0902548_0911384_0920133_0925434_0930736_0935685_0940398_0945007_0949131_0953255_0956053_0958409_0960766_0963122_0965479_0969161_0972990_0976819_0980648_0984492_0988616_0992739_0994654_0995243_0995714_0995714_0995714_0995714_0995714_0995714_0995714_0995714_0995714_0995714_0995714_0995714_0995714_0995714_0995714_0995714_0995714_0995714_0995714_0995714_0995950_0996244_0996539_0996834_0997128_0997143_0997143_0997143_0997143_0997172_0997467_0997761_0998056_0998351_0998571_0998571_0998571_0999057_0999647_1000240_1000830_1001410_1002000_1002590_1003180_1003770_1004360_1004950_1005540_1024680_1051780_1084390_1131520_1178650_1220770_1262000_1310750_1369660_1428570,
  1_0000000_0000000_0000000_0130624_0301975_0466258_0566939_0667619_0727998_0766676_0802673_0827940_0853207_0872643_0890136_0904947_0913499_0922051_0927464_0932323_0937026_0941497_0945967_0950068_0954150_0957308_0959543_0961778_0964014_0966249_0969475_0973363_0977250_0981137_0985024_0989048_0993129_0996288_0996676_0997065_0997143_0997143_0997143_0997143_0997143_0997143_0997143_0997143_0997143_0997143_0997143_0997143_0997143_0997143_0997143_0997143_0997143_0997143_0997143_0997182_0997376_0997570_0997765_0997959_0998095_0998095_0998095_0998095_0998095_0998173_0998367_0998562_0998756_0998950_0999048_0999048_0999067_0999456_0999844_1000230_1000620_1001010_1001400_1001790_1002180_1002570_1002950_1003340_1003730_1018120_1036000_1058500_1089600_1120700_1148300_1175510_1207970_1246840_1285710,
  1_0000000_0000000_0000000_0129382_0303081_0473011_0571328_0669644_0732891_0770216_0806272_0830899_0855527_0875224_0891962_0907431_0915705_0923978_0929654_0934079_0938466_0942698_0946931_0951024_0955065_0958624_0960741_0962857_0964974_0967090_0969755_0973699_0977643_0981587_0985532_0989509_0993550_0997590_0998264_0998456_0998571_0998571_0998571_0998571_0998571_0998571_0998571_0998571_0998571_0998571_0998571_0998571_0998571_0998571_0998571_0998571_0998571_0998571_0998571_0998571_0998629_0998725_0998822_0998918_0999014_0999048_0999048_0999048_0999048_0999048_0999115_0999211_0999307_0999404_0999500_0999524_0999524_0999577_0999769_0999961_1000150_1000350_1000540_1000730_1000920_1001120_1001310_1001500_1001690_1001890_1009870_1018720_1030350_1045740_1061140_1074700_1088170_1104380_1123620_1142860,
  1_0000000_0001000_0027000_0128000_0304000_0480000_0576000_0672000_0738000_0774000_0810000_0834000_0858000_0878000_0894000_0910000_0918000_0926000_0932000_0936000_0940000_0944000_0948000_0952000_0956000_0960000_0962000_0964000_0966000_0968000_0970000_0974000_0978000_0982000_0986000_0990000_0994000_0998000_1000000_1000000_1000000_1000000_1000000_1000000_1000000_1000000_1000000_1000000_1000000_1000000_1000000_1000000_1000000_1000000_1000000_1000000_1000000_1000000_1000000_1000000_1000000_1000000_1000000_1000000_1000000_1000000_1000000_1000000_1000000_1000000_1000000_1000000_1000000_1000000_1000000_1000000_1000000_1000000_1000000_1000000_1000000_1000000_1000000_1000000_1000000_1000000_1000000_1000000_1000000_1000000_1000000_1000000_1000000_1000000_1000000_1000000_1000000_1000000_1000000_1000000_1000000,
  1_0000000_0000843_0058009_0144263_0299248_0454232_0571285_0650408_0729530_0771505_0801097_0830690_0850000_0869310_0886959_0899624_0912288_0921630_0927649_0933668_0937900_0941536_0945172_0948809_0952445_0956238_0960502_0964765_0967649_0969154_0970658_0972163_0973668_0975172_0978182_0981191_0984201_0987210_0990219_0993229_0996238_0999248_1000000_1000000_1000000_1000000_1000000_1000000_1000000_1000000_1000000_1000000_1000000_1000000_1000000_1000000_1000000_1000000_1000000_1000000_1000000_1000000_1000000_1000000_1000000_1000000_1000000_1000000_1000000_1000000_1000000_1000000_1000000_1000000_1000000_1000000_1000000_1000000_1000000_1000000_1000000_1000000_1000000_1000000_1000000_1000000_1000000_1000000_1000000_1000000_1000000_1000000_1000000_1000000_1000000_1000000_1000000_1000000_1000000_1000000_1000000_1000000,
  1_0000000_0000723_0076571_0171034_0308506_0445977_0583448_0648506_0713563_0778621_0802874_0827126_0851379_0866782_0882184_0897586_0907471_0917356_0927241_0931609_0935977_0940345_0943678_0947012_0950345_0953678_0957012_0960345_0964828_0969310_0973793_0974885_0975977_0977069_0978161_0979253_0980345_0982529_0984713_0986897_0989080_0991264_0993448_0995632_0997816_1000000_1000000_1000000_1000000_1000000_1000000_1000000_1000000_1000000_1000000_1000000_1000000_1000000_1000000_1000000_1000000_1000000_1000000_1000000_1000000_1000000_1000000_1000000_1000000_1000000_1000000_1000000_1000000_1000000_1000000_1000000_1000000_1000000_1000000_1000000_1000000_1000000_1000000_1000000_1000000_1000000_1000000_1000000_1000000_1000000_1000000_1000000_1000000_1000000_1000000_1000000_1000000_1000000_1000000_1000000_1000000_1000000_1000000,
  1_0000000_0000632_0085557_0206353_0328541_0451194_0573846_0661751_0714907_0768064_0812865_0832599_0852334_0872069_0884164_0896260_0908355_0917029_0924562_0932095_0937347_0940318_0943289_0946286_0949363_0952440_0955517_0958594_0961671_0964748_0969019_0973687_0978355_0981061_0981804_0982546_0983289_0984032_0984775_0985517_0987003_0988488_0989973_0991459_0992944_0994430_0995915_0997401_0998886_1000000_1000000_1000000_1000000_1000000_1000000_1000000_1000000_1000000_1000000_1000000_1000000_1000000_1000000_1000000_1000000_1000000_1000000_1000000_1000000_1000000_1000000_1000000_1000000_1000000_1000000_1000000_1000000_1000000_1000000_1000000_1000000_1000000_1000000_1000000_1000000_1000000_1000000_1000000_1000000_1000000_1000000_1000000_1000000_1000000_1000000_1000000_1000000_1000000_1000000_1000000_1000000_1000000_1000000_1000000,
  1_0000000_0000565_0087020_0230386_0357044_0466995_0576946_0686897_0729852_0772808_0815764_0845172_0861035_0876897_0892759_0902020_0911281_0920542_0927931_0933448_0938965_0944483_0946256_0948030_0949803_0952118_0954975_0957833_0960690_0963547_0966404_0969261_0973103_0977931_0982759_0987586_0988030_0988473_0988916_0989360_0989803_0990246_0990690_0991576_0992463_0993350_0994236_0995123_0996010_0996897_0997783_0998670_0999557_1000000_1000000_1000000_1000000_1000000_1000000_1000000_1000000_1000000_1000000_1000000_1000000_1000000_1000000_1000000_1000000_1000000_1000000_1000000_1000000_1000000_1000000_1000000_1000000_1000000_1000000_1000000_1000000_1000000_1000000_1000000_1000000_1000000_1000000_1000000_1000000_1000000_1000000_1000000_1000000_1000000_1000000_1000000_1000000_1000000_1000000_1000000_1000000_1000000_1000000_1000000_1000000,
  1_0000000_0000515_0082464_0245391_0392322_0491264_0590207_0689149_0755678_0789793_0823908_0858023_0875931_0888437_0900943_0913448_0920253_0927057_0933862_0939908_0943678_0947448_0951218_0953471_0954207_0954943_0955678_0957862_0960529_0963195_0965862_0968529_0971195_0973862_0977103_0982069_0987034_0992000_0994575_0994759_0994942_0995126_0995310_0995494_0995678_0995862_0996230_0996598_0996966_0997333_0997701_0998069_0998437_0998805_0999172_0999540_0999908_1000000_1000000_1000000_1000000_1000000_1000000_1000000_1000000_1000000_1000000_1000000_1000000_1000000_1000000_1000000_1000000_1000000_1000000_1000000_1000000_1000000_1000000_1000000_1000000_1000000_1000000_1000000_1000000_1000000_1000000_1000000_1000000_1000000_1000000_1000000_1000000_1000000_1000000_1000000_1000000_1000000_1000000_1000000_1000000_1000000_1000000_1000000_1000000_1000000,
  1_0000000_0000964_0073889_0251468_0429048_0517857_0606667_0695476_0784286_0811190_0838095_0865000_0891905_0901667_0911429_0921191_0930952_0935833_0940714_0945595_0950476_0952976_0955476_0957976_0960476_0960595_0960714_0960833_0960952_0963452_0965952_0968452_0970952_0973452_0975952_0978452_0980952_0985714_0990476_0995238_1000000_1000000_1000000_1000000_1000000_1000000_1000000_1000000_1000000_1000000_1000000_1000000_1000000_1000000_1000000_1000000_1000000_1000000_1000000_1000000_1000000_1000000_1000000_1000000_1000000_1000000_1000000_1000000_1000000_1000000_1000000_1000000_1000000_1000000_1000000_1000000_1000000_1000000_1000000_1000000_1000000_1000000_1000000_1000000_1000000_1000000_1000000_1000000_1000000_1000000_1000000_1000000_1000000_1000000_1000000_1000000_1000000_1000000_1000000_1000000_1000000_1000000_1000000_1000000_1000000_1000000_1000000,
  1_0000000_0002555_0066513_0247745_0428978_0532773_0610756_0688739_0766723_0816975_0839496_0862017_0884538_0903445_0911513_0919580_0927647_0935714_0939748_0943781_0947815_0951849_0954622_0956975_0959328_0961681_0963193_0963866_0964538_0965210_0966303_0968655_0971008_0973361_0975714_0978067_0980420_0982773_0985126_0988235_0991597_0994958_0998319_1000000_1000000_1000000_1000000_1000000_1000000_1000000_1000000_1000000_1000000_1000000_1000000_1000000_1000000_1000000_1000000_1000000_1000000_1000000_1000000_1000000_1000000_1000000_1000000_1000000_1000000_1000000_1000000_1000000_1000000_1000000_1000000_1000000_1000000_1000000_1000000_1000000_1000000_1000000_1000000_1000000_1000000_1000000_1000000_1000000_1000000_1000000_1000000_1000000_1000000_1000000_1000000_1000000_1000000_1000000_1000000_1000000_1000000_1000000_1000000_1000000_1000000_1000000_1000000_1000000,
  1_0000000_0002974_0058325_0242804_0427284_0553704_0622063_0690423_0758783_0827143_0845767_0864392_0883016_0901640_0914233_0920794_0927355_0933915_0940476_0943757_0947037_0950317_0953598_0956349_0958571_0960794_0963016_0965238_0966402_0967566_0968730_0969894_0971587_0973810_0976032_0978254_0980476_0982698_0984921_0987143_0989365_0991534_0993651_0995767_0997884_1000000_1000000_1000000_1000000_1000000_1000000_1000000_1000000_1000000_1000000_1000000_1000000_1000000_1000000_1000000_1000000_1000000_1000000_1000000_1000000_1000000_1000000_1000000_1000000_1000000_1000000_1000000_1000000_1000000_1000000_1000000_1000000_1000000_1000000_1000000_1000000_1000000_1000000_1000000_1000000_1000000_1000000_1000000_1000000_1000000_1000000_1000000_1000000_1000000_1000000_1000000_1000000_1000000_1000000_1000000_1000000_1000000_1000000_1000000_1000000_1000000_1000000_1000000_1000000,
  1_0000000_0002406_0049453_0236838_0424223_0579699_0639449_0699198_0758947_0818697_0856140_0871278_0886416_0901554_0916692_0924386_0929599_0934812_0940025_0945238_0947845_0950451_0953058_0955664_0958145_0960251_0962356_0964461_0966566_0968421_0970025_0971629_0973233_0974837_0976817_0978922_0981028_0983133_0985238_0987343_0989449_0991554_0993659_0995489_0996491_0997494_0998496_0999499_1000000_1000000_1000000_1000000_1000000_1000000_1000000_1000000_1000000_1000000_1000000_1000000_1000000_1000000_1000000_1000000_1000000_1000000_1000000_1000000_1000000_1000000_1000000_1000000_1000000_1000000_1000000_1000000_1000000_1000000_1000000_1000000_1000000_1000000_1000000_1000000_1000000_1000000_1000000_1000000_1000000_1000000_1000000_1000000_1000000_1000000_1000000_1000000_1000000_1000000_1000000_1000000_1000000_1000000_1000000_1000000_1000000_1000000_1000000_1000000_1000000_1000000,
  1_0000000_0001000_0040000_0230000_0420000_0610000_0662000_0714000_0766000_0818000_0870000_0882000_0894000_0906000_0918000_0930000_0934000_0938000_0942000_0946000_0950000_0952000_0954000_0956000_0958000_0960000_0962000_0964000_0966000_0968000_0970000_0972000_0974000_0976000_0978000_0980000_0982000_0984000_0986000_0988000_0990000_0992000_0994000_0996000_0998000_1000000_1000000_1000000_1000000_1000000_1000000_1000000_1000000_1000000_1000000_1000000_1000000_1000000_1000000_1000000_1000000_1000000_1000000_1000000_1000000_1000000_1000000_1000000_1000000_1000000_1000000_1000000_1000000_1000000_1000000_1000000_1000000_1000000_1000000_1000000_1000000_1000000_1000000_1000000_1000000_1000000_1000000_1000000_1000000_1000000_1000000_1000000_1000000_1000000_1000000_1000000_1000000_1000000_1000000_1000000_1000000_1000000_1000000_1000000_1000000_1000000_1000000_1000000_1000000_1000000_1000000,
  1_0000000_0000000_0051179_0219729_0401229_0582729_0663522_0710747_0757972_0805197_0852422_0881420_0892192_0902964_0913736_0924507_0933539_0937348_0941158_0944967_0948777_0952586_0954655_0956724_0958793_0960862_0962931_0964754_0966494_0968235_0969975_0971716_0973457_0975197_0976938_0978678_0980419_0982159_0983900_0985640_0987381_0989121_0990862_0992603_0994343_0996084_0997824_0999565_1000000_1000000_1000000_1000000_1000000_1000000_1000000_1000000_1000000_1000000_1000000_1000000_1000000_1000000_1000000_1000000_1000000_1000000_1000000_1000000_1000000_1000000_1000000_1000000_1000000_1000000_1000000_1000000_1000000_1000000_1000000_1000000_1000000_1000000_1000000_1000000_1000000_1000000_1000000_1000000_1000000_1000000_1000000_1000000_1000000_1000000_1000000_1000000_1000000_1000000_1000000_1000000_1000000_1000000_1000000_1000000_1000000_1000000_1000000_1000000_1000000_1000000_1000000_1000000,
  1_0000000_0000000_0059994_0211776_0385549_0559321_0667649_0710533_0753417_0796301_0839185_0882069_0891724_0901379_0911035_0920690_0930345_0936991_0940627_0944263_0947900_0951536_0955172_0957304_0959436_0961567_0963699_0965831_0967649_0969154_0970658_0972163_0973668_0975172_0976677_0978182_0979687_0981191_0982696_0984201_0985705_0987210_0988715_0990219_0991724_0993229_0994734_0996238_0997743_0999248_1000000_1000000_1000000_1000000_1000000_1000000_1000000_1000000_1000000_1000000_1000000_1000000_1000000_1000000_1000000_1000000_1000000_1000000_1000000_1000000_1000000_1000000_1000000_1000000_1000000_1000000_1000000_1000000_1000000_1000000_1000000_1000000_1000000_1000000_1000000_1000000_1000000_1000000_1000000_1000000_1000000_1000000_1000000_1000000_1000000_1000000_1000000_1000000_1000000_1000000_1000000_1000000_1000000_1000000_1000000_1000000_1000000_1000000_1000000_1000000_1000000_1000000_1000000,
  1_0000000_0000000_0066753_0205840_0372556_0539273_0674040_0712961_0751882_0790802_0829723_0868643_0892421_0901057_0909693_0918328_0926964_0935600_0940367_0943846_0947324_0950802_0954280_0957759_0959948_0962136_0964325_0966514_0968703_0970667_0971956_0973246_0974535_0975825_0977114_0978403_0979693_0980982_0982271_0983561_0984850_0986139_0987429_0988718_0990008_0991297_0992586_0993876_0995165_0996454_0997744_0999033_1000000_1000000_1000000_1000000_1000000_1000000_1000000_1000000_1000000_1000000_1000000_1000000_1000000_1000000_1000000_1000000_1000000_1000000_1000000_1000000_1000000_1000000_1000000_1000000_1000000_1000000_1000000_1000000_1000000_1000000_1000000_1000000_1000000_1000000_1000000_1000000_1000000_1000000_1000000_1000000_1000000_1000000_1000000_1000000_1000000_1000000_1000000_1000000_1000000_1000000_1000000_1000000_1000000_1000000_1000000_1000000_1000000_1000000_1000000_1000000_1000000_1000000,
  1_0000000_0000000_0071713_0201667_0361916_0522165_0682414_0717701_0752989_0788276_0823563_0858851_0894138_0901839_0909540_0917241_0924942_0932644_0940345_0943678_0947011_0950345_0953678_0957012_0960345_0962586_0964828_0967069_0969310_0971552_0973793_0974885_0975977_0977069_0978161_0979253_0980345_0981437_0982529_0983621_0984713_0985805_0986897_0987989_0989080_0990172_0991264_0992356_0993448_0994540_0995632_0996724_0997816_0998908_1000000_1000000_1000000_1000000_1000000_1000000_1000000_1000000_1000000_1000000_1000000_1000000_1000000_1000000_1000000_1000000_1000000_1000000_1000000_1000000_1000000_1000000_1000000_1000000_1000000_1000000_1000000_1000000_1000000_1000000_1000000_1000000_1000000_1000000_1000000_1000000_1000000_1000000_1000000_1000000_1000000_1000000_1000000_1000000_1000000_1000000_1000000_1000000_1000000_1000000_1000000_1000000_1000000_1000000_1000000_1000000_1000000_1000000_1000000_1000000_1000000,
  1_0000000_0000000_0075090_0199046_0353345_0507644_0661943_0724476_0756421_0788365_0820310_0852255_0884200_0903593_0910434_0917276_0924117_0930959_0937800_0943731_0946931_0950131_0953331_0956531_0959731_0962931_0965221_0967510_0969800_0972090_0974379_0976669_0977924_0978835_0979745_0980655_0981566_0982476_0983386_0984297_0985207_0986117_0987028_0987938_0988848_0989759_0990669_0991579_0992490_0993400_0994310_0995221_0996131_0997041_0997952_0998862_0999772_1000000_1000000_1000000_1000000_1000000_1000000_1000000_1000000_1000000_1000000_1000000_1000000_1000000_1000000_1000000_1000000_1000000_1000000_1000000_1000000_1000000_1000000_1000000_1000000_1000000_1000000_1000000_1000000_1000000_1000000_1000000_1000000_1000000_1000000_1000000_1000000_1000000_1000000_1000000_1000000_1000000_1000000_1000000_1000000_1000000_1000000_1000000_1000000_1000000_1000000_1000000_1000000_1000000_1000000_1000000_1000000_1000000_1000000_1000000,
  1_0000000_0000000_0077066_0197798_0346605_0495411_0644217_0733050_0761910_0790769_0819629_0848488_0877347_0906207_0912255_0918302_0924350_0930398_0936446_0942493_0947056_0950133_0953210_0956286_0959363_0962440_0965517_0967851_0970186_0972520_0974854_0977188_0979523_0981061_0981804_0982546_0983289_0984032_0984775_0985517_0986260_0987003_0987745_0988488_0989231_0989973_0990716_0991459_0992202_0992944_0993687_0994430_0995172_0995915_0996658_0997401_0998143_0998886_0999629_1000000_1000000_1000000_1000000_1000000_1000000_1000000_1000000_1000000_1000000_1000000_1000000_1000000_1000000_1000000_1000000_1000000_1000000_1000000_1000000_1000000_1000000_1000000_1000000_1000000_1000000_1000000_1000000_1000000_1000000_1000000_1000000_1000000_1000000_1000000_1000000_1000000_1000000_1000000_1000000_1000000_1000000_1000000_1000000_1000000_1000000_1000000_1000000_1000000_1000000_1000000_1000000_1000000_1000000_1000000_1000000_1000000_1000000,
  1_0000000_0000000_0077798_0197771_0341492_0485213_0628934_0743225_0769227_0795230_0821232_0847235_0873238_0899240_0914898_0920211_0925524_0930836_0936149_0941462_0946775_0950326_0953289_0956252_0959215_0962178_0965141_0968103_0970479_0972854_0975230_0977605_0979981_0982356_0984285_0984872_0985460_0986047_0986635_0987222_0987810_0988397_0988985_0989572_0990160_0990747_0991335_0991922_0992510_0993097_0993685_0994272_0994860_0995447_0996035_0996622_0997209_0997797_0998384_0998972_0999559_1000000_1000000_1000000_1000000_1000000_1000000_1000000_1000000_1000000_1000000_1000000_1000000_1000000_1000000_1000000_1000000_1000000_1000000_1000000_1000000_1000000_1000000_1000000_1000000_1000000_1000000_1000000_1000000_1000000_1000000_1000000_1000000_1000000_1000000_1000000_1000000_1000000_1000000_1000000_1000000_1000000_1000000_1000000_1000000_1000000_1000000_1000000_1000000_1000000_1000000_1000000_1000000_1000000_1000000_1000000_1000000_1000000,
  1_0000000_0000000_0077419_0198834_0337833_0476831_0615829_0754828_0778177_0801527_0824877_0848227_0871576_0894926_0918276_0922906_0927537_0932167_0936798_0941429_0946059_0950690_0953547_0956404_0959261_0962118_0964975_0967833_0970690_0973103_0975517_0977931_0980345_0982759_0985172_0987586_0988030_0988473_0988916_0989360_0989803_0990246_0990690_0991133_0991576_0992020_0992463_0992906_0993350_0993793_0994236_0994680_0995123_0995567_0996010_0996453_0996897_0997340_0997783_0998227_0998670_0999113_0999557_1000000_1000000_1000000_1000000_1000000_1000000_1000000_1000000_1000000_1000000_1000000_1000000_1000000_1000000_1000000_1000000_1000000_1000000_1000000_1000000_1000000_1000000_1000000_1000000_1000000_1000000_1000000_1000000_1000000_1000000_1000000_1000000_1000000_1000000_1000000_1000000_1000000_1000000_1000000_1000000_1000000_1000000_1000000_1000000_1000000_1000000_1000000_1000000_1000000_1000000_1000000_1000000_1000000_1000000_1000000_1000000,
  1_0000000_0000000_0076043_0200874_0335476_0470077_0604679_0739281_0788591_0809471_0830351_0851231_0872111_0892990_0913870_0926308_0930303_0934298_0938294_0942289_0946284_0950279_0953966_0956724_0959483_0962241_0965000_0967759_0970517_0973276_0975725_0978175_0980624_0983074_0985523_0987973_0990422_0991266_0991576_0991885_0992194_0992503_0992812_0993121_0993430_0993740_0994049_0994358_0994667_0994976_0995285_0995595_0995904_0996213_0996522_0996831_0997140_0997449_0997759_0998068_0998377_0998686_0998995_0999304_0999614_0999923_1000000_1000000_1000000_1000000_1000000_1000000_1000000_1000000_1000000_1000000_1000000_1000000_1000000_1000000_1000000_1000000_1000000_1000000_1000000_1000000_1000000_1000000_1000000_1000000_1000000_1000000_1000000_1000000_1000000_1000000_1000000_1000000_1000000_1000000_1000000_1000000_1000000_1000000_1000000_1000000_1000000_1000000_1000000_1000000_1000000_1000000_1000000_1000000_1000000_1000000_1000000_1000000_1000000_1000000,
  1_0000000_0000000_0073770_0203793_0334291_0464789_0595287_0725785_0800322_0818897_0837471_0856046_0874621_0893195_0911770_0930345_0933747_0937149_0940552_0943954_0947356_0950759_0954161_0957195_0959862_0962529_0965195_0967862_0970529_0973195_0975862_0978345_0980828_0983310_0985793_0988276_0990759_0993241_0994575_0994759_0994943_0995126_0995310_0995494_0995678_0995862_0996046_0996230_0996414_0996598_0996782_0996966_0997149_0997333_0997517_0997701_0997885_0998069_0998253_0998437_0998621_0998805_0998989_0999172_0999356_0999540_0999724_0999908_1000000_1000000_1000000_1000000_1000000_1000000_1000000_1000000_1000000_1000000_1000000_1000000_1000000_1000000_1000000_1000000_1000000_1000000_1000000_1000000_1000000_1000000_1000000_1000000_1000000_1000000_1000000_1000000_1000000_1000000_1000000_1000000_1000000_1000000_1000000_1000000_1000000_1000000_1000000_1000000_1000000_1000000_1000000_1000000_1000000_1000000_1000000_1000000_1000000_1000000_1000000_1000000_1000000,
  1_0000000_0000000_0070687_0206583_0334166_0460825_0587484_0714144_0813242_0829661_0846079_0862497_0878915_0895334_0911752_0928170_0937803_0940651_0943498_0946346_0949194_0952041_0954889_0957736_0960384_0962964_0965545_0968126_0970706_0973287_0975868_0978448_0980962_0983476_0985990_0988504_0991018_0993532_0996046_0997948_0998014_0998081_0998148_0998215_0998281_0998348_0998415_0998482_0998548_0998615_0998682_0998749_0998815_0998882_0998949_0999016_0999082_0999149_0999216_0999283_0999349_0999416_0999483_0999550_0999616_0999683_0999750_0999816_0999883_0999950_1000000_1000000_1000000_1000000_1000000_1000000_1000000_1000000_1000000_1000000_1000000_1000000_1000000_1000000_1000000_1000000_1000000_1000000_1000000_1000000_1000000_1000000_1000000_1000000_1000000_1000000_1000000_1000000_1000000_1000000_1000000_1000000_1000000_1000000_1000000_1000000_1000000_1000000_1000000_1000000_1000000_1000000_1000000_1000000_1000000_1000000_1000000_1000000_1000000_1000000_1000000_1000000,
  1_0000000_0000000_0071707_0215000_0340203_0460884_0581565_0702246_0822927_0837622_0852317_0867012_0881707_0896402_0911098_0925793_0940488_0942988_0945488_0947988_0950488_0952988_0955488_0957988_0960488_0963049_0965610_0968171_0970732_0973293_0975854_0978415_0980976_0983354_0985732_0988110_0990488_0992866_0995244_0997622_1000000_1000000_1000000_1000000_1000000_1000000_1000000_1000000_1000000_1000000_1000000_1000000_1000000_1000000_1000000_1000000_1000000_1000000_1000000_1000000_1000000_1000000_1000000_1000000_1000000_1000000_1000000_1000000_1000000_1000000_1000000_1000000_1000000_1000000_1000000_1000000_1000000_1000000_1000000_1000000_1000000_1000000_1000000_1000000_1000000_1000000_1000000_1000000_1000000_1000000_1000000_1000000_1000000_1000000_1000000_1000000_1000000_1000000_1000000_1000000_1000000_1000000_1000000_1000000_1000000_1000000_1000000_1000000_1000000_1000000_1000000_1000000_1000000_1000000_1000000_1000000_1000000_1000000_1000000_1000000_1000000_1000000_1000000,
  1_0000000_0000000_0078914_0231907_0355928_0467531_0579135_0690739_0802343_0840377_0853888_0867398_0880909_0894420_0907930_0921441_0934952_0942919_0945344_0947768_0950192_0952616_0955041_0957465_0959889_0962365_0964996_0967627_0970259_0972890_0975521_0978152_0980783_0983415_0985425_0987435_0989446_0991456_0993466_0995477_0997487_0999497_1000000_1000000_1000000_1000000_1000000_1000000_1000000_1000000_1000000_1000000_1000000_1000000_1000000_1000000_1000000_1000000_1000000_1000000_1000000_1000000_1000000_1000000_1000000_1000000_1000000_1000000_1000000_1000000_1000000_1000000_1000000_1000000_1000000_1000000_1000000_1000000_1000000_1000000_1000000_1000000_1000000_1000000_1000000_1000000_1000000_1000000_1000000_1000000_1000000_1000000_1000000_1000000_1000000_1000000_1000000_1000000_1000000_1000000_1000000_1000000_1000000_1000000_1000000_1000000_1000000_1000000_1000000_1000000_1000000_1000000_1000000_1000000_1000000_1000000_1000000_1000000_1000000_1000000_1000000_1000000_1000000_1000000,
  1_0000000_0000000_0084978_0247102_0373788_0476848_0579909_0682970_0786031_0843759_0856155_0868551_0880947_0893343_0905739_0918135_0930531_0942927_0945280_0947633_0949986_0952339_0954692_0957044_0959397_0961750_0964275_0966973_0969670_0972367_0975065_0977762_0980459_0983156_0985854_0987518_0989182_0990847_0992511_0994175_0995839_0997504_0999168_1000000_1000000_1000000_1000000_1000000_1000000_1000000_1000000_1000000_1000000_1000000_1000000_1000000_1000000_1000000_1000000_1000000_1000000_1000000_1000000_1000000_1000000_1000000_1000000_1000000_1000000_1000000_1000000_1000000_1000000_1000000_1000000_1000000_1000000_1000000_1000000_1000000_1000000_1000000_1000000_1000000_1000000_1000000_1000000_1000000_1000000_1000000_1000000_1000000_1000000_1000000_1000000_1000000_1000000_1000000_1000000_1000000_1000000_1000000_1000000_1000000_1000000_1000000_1000000_1000000_1000000_1000000_1000000_1000000_1000000_1000000_1000000_1000000_1000000_1000000_1000000_1000000_1000000_1000000_1000000_1000000_1000000,
  1_0000000_0000000_0090000_0260732_0393600_0488606_0583612_0678618_0773624_0847714_0859059_0870404_0881749_0893094_0904439_0915784_0927129_0938474_0945289_0947575_0949861_0952146_0954432_0956718_0959003_0961289_0963575_0966216_0968976_0971735_0974495_0977254_0980014_0982774_0985533_0988293_0989631_0990969_0992307_0993645_0994983_0996321_0997659_0998996_1000000_1000000_1000000_1000000_1000000_1000000_1000000_1000000_1000000_1000000_1000000_1000000_1000000_1000000_1000000_1000000_1000000_1000000_1000000_1000000_1000000_1000000_1000000_1000000_1000000_1000000_1000000_1000000_1000000_1000000_1000000_1000000_1000000_1000000_1000000_1000000_1000000_1000000_1000000_1000000_1000000_1000000_1000000_1000000_1000000_1000000_1000000_1000000_1000000_1000000_1000000_1000000_1000000_1000000_1000000_1000000_1000000_1000000_1000000_1000000_1000000_1000000_1000000_1000000_1000000_1000000_1000000_1000000_1000000_1000000_1000000_1000000_1000000_1000000_1000000_1000000_1000000_1000000_1000000_1000000_1000000_1000000,
  1_0000000_0000000_0094065_0272927_0415203_0502602_0590000_0677398_0764797_0852195_0862547_0872900_0883252_0893604_0903957_0914309_0924661_0935014_0945366_0947588_0949810_0952033_0954255_0956477_0958699_0960921_0963144_0965366_0968184_0971003_0973821_0976640_0979458_0982276_0985095_0987913_0990732_0991762_0992791_0993821_0994851_0995881_0996911_0997940_0998970_1000000_1000000_1000000_1000000_1000000_1000000_1000000_1000000_1000000_1000000_1000000_1000000_1000000_1000000_1000000_1000000_1000000_1000000_1000000_1000000_1000000_1000000_1000000_1000000_1000000_1000000_1000000_1000000_1000000_1000000_1000000_1000000_1000000_1000000_1000000_1000000_1000000_1000000_1000000_1000000_1000000_1000000_1000000_1000000_1000000_1000000_1000000_1000000_1000000_1000000_1000000_1000000_1000000_1000000_1000000_1000000_1000000_1000000_1000000_1000000_1000000_1000000_1000000_1000000_1000000_1000000_1000000_1000000_1000000_1000000_1000000_1000000_1000000_1000000_1000000_1000000_1000000_1000000_1000000_1000000_1000000_1000000,
  1_0000000_0000000_0097251_0283804_0438451_0518653_0598855_0679057_0759260_0839462_0866572_0875986_0885399_0894812_0904225_0913639_0923052_0932465_0941879_0947666_0949829_0951991_0954153_0956315_0958477_0960639_0962802_0964964_0967304_0970178_0973052_0975926_0978800_0981674_0984548_0987423_0990297_0993171_0993909_0994647_0995386_0996124_0996862_0997601_0998339_0999077_0999815_1000000_1000000_1000000_1000000_1000000_1000000_1000000_1000000_1000000_1000000_1000000_1000000_1000000_1000000_1000000_1000000_1000000_1000000_1000000_1000000_1000000_1000000_1000000_1000000_1000000_1000000_1000000_1000000_1000000_1000000_1000000_1000000_1000000_1000000_1000000_1000000_1000000_1000000_1000000_1000000_1000000_1000000_1000000_1000000_1000000_1000000_1000000_1000000_1000000_1000000_1000000_1000000_1000000_1000000_1000000_1000000_1000000_1000000_1000000_1000000_1000000_1000000_1000000_1000000_1000000_1000000_1000000_1000000_1000000_1000000_1000000_1000000_1000000_1000000_1000000_1000000_1000000_1000000_1000000_1000000_1000000,
  1_0000000_0000000_0099628_0293466_0463214_0536598_0609983_0683368_0756752_0830137_0871091_0879615_0888139_0896662_0905186_0913710_0922234_0930757_0939281_0947805_0949910_0952015_0954121_0956226_0958331_0960436_0962542_0964647_0966752_0969268_0972195_0975122_0978049_0980976_0983902_0986829_0989756_0992683_0995610_0996072_0996534_0996996_0997458_0997920_0998383_0998845_0999307_0999769_1000000_1000000_1000000_1000000_1000000_1000000_1000000_1000000_1000000_1000000_1000000_1000000_1000000_1000000_1000000_1000000_1000000_1000000_1000000_1000000_1000000_1000000_1000000_1000000_1000000_1000000_1000000_1000000_1000000_1000000_1000000_1000000_1000000_1000000_1000000_1000000_1000000_1000000_1000000_1000000_1000000_1000000_1000000_1000000_1000000_1000000_1000000_1000000_1000000_1000000_1000000_1000000_1000000_1000000_1000000_1000000_1000000_1000000_1000000_1000000_1000000_1000000_1000000_1000000_1000000_1000000_1000000_1000000_1000000_1000000_1000000_1000000_1000000_1000000_1000000_1000000_1000000_1000000_1000000_1000000_1000000,
  1_0000000_0000000_0101257_0302007_0489375_0556291_0623208_0690125_0757042_0823959_0876066_0883746_0891426_0899106_0906785_0914465_0922145_0929825_0937505_0945184_0950050_0952101_0954153_0956204_0958255_0960306_0962358_0964409_0966460_0968512_0971257_0974234_0977211_0980188_0983164_0986141_0989118_0992095_0995072_0998049_0998249_0998449_0998649_0998849_0999049_0999250_0999450_0999650_0999850_1000000_1000000_1000000_1000000_1000000_1000000_1000000_1000000_1000000_1000000_1000000_1000000_1000000_1000000_1000000_1000000_1000000_1000000_1000000_1000000_1000000_1000000_1000000_1000000_1000000_1000000_1000000_1000000_1000000_1000000_1000000_1000000_1000000_1000000_1000000_1000000_1000000_1000000_1000000_1000000_1000000_1000000_1000000_1000000_1000000_1000000_1000000_1000000_1000000_1000000_1000000_1000000_1000000_1000000_1000000_1000000_1000000_1000000_1000000_1000000_1000000_1000000_1000000_1000000_1000000_1000000_1000000_1000000_1000000_1000000_1000000_1000000_1000000_1000000_1000000_1000000_1000000_1000000_1000000_1000000_1000000,
  1_0000000_0000000_0102718_0307816_0512913_0574191_0635469_0696748_0758026_0819304_0880583_0887563_0894544_0901524_0908505_0915485_0922466_0929447_0936427_0943408_0950388_0952408_0954427_0956447_0958466_0960485_0962505_0964524_0966544_0968563_0970583_0973524_0976466_0979408_0982350_0985291_0988233_0991175_0994116_0997058_1000000_1000000_1000000_1000000_1000000_1000000_1000000_1000000_1000000_1000000_1000000_1000000_1000000_1000000_1000000_1000000_1000000_1000000_1000000_1000000_1000000_1000000_1000000_1000000_1000000_1000000_1000000_1000000_1000000_1000000_1000000_1000000_1000000_1000000_1000000_1000000_1000000_1000000_1000000_1000000_1000000_1000000_1000000_1000000_1000000_1000000_1000000_1000000_1000000_1000000_1000000_1000000_1000000_1000000_1000000_1000000_1000000_1000000_1000000_1000000_1000000_1000000_1000000_1000000_1000000_1000000_1000000_1000000_1000000_1000000_1000000_1000000_1000000_1000000_1000000_1000000_1000000_1000000_1000000_1000000_1000000_1000000_1000000_1000000_1000000_1000000_1000000_1000000_1000000_1000000_1000000,
  1_0000000_0000000_0000000_0306851_0507419_0579576_0637465_0695355_0753244_0811134_0869023_0888532_0895247_0901963_0908679_0915394_0922110_0928825_0935541_0942257_0948972_0953363_0955427_0957492_0959557_0961622_0963687_0965752_0967817_0969882_0971947_0974142_0976727_0979313_0981899_0984485_0987071_0989657_0992243_0994828_0997414_1000000_1000000_1000000_1000000_1000000_1000000_1000000_1000000_1000000_1000000_1000000_1000000_1000000_1000000_1000000_1000000_1000000_1000000_1000000_1000000_1000000_1000000_1000000_1000000_1000000_1000000_1000000_1000000_1000000_1000000_1000000_1000000_1000000_1000000_1000000_1000000_1000000_1000000_1000000_1000000_1000000_1000000_1000000_1000000_1000000_1000000_1000000_1000000_1000000_1000000_1000000_1000000_1000000_1000000_1000000_1000000_1000000_1000000_1000000_1000000_1000000_1000000_1000000_1000000_1000000_1000000_1000000_1000000_1000000_1000000_1000000_1000000_1000000_1000000_1000000_1000000_1000000_1000000_1000000_1000000_1000000_1000000_1000000_1000000_1000000_1000000_1000000_1000000_1000000_1000000_1000000,
  1_0000000_0000000_0000000_0306533_0502788_0585768_0640430_0695092_0749753_0804415_0859077_0889639_0896103_0902566_0909029_0915492_0921956_0928419_0934882_0941345_0947809_0954272_0956380_0958488_0960596_0962705_0964813_0966921_0969029_0971137_0973246_0975354_0977531_0979778_0982025_0984272_0986519_0988766_0991012_0993259_0995506_0997753_1000000_1000000_1000000_1000000_1000000_1000000_1000000_1000000_1000000_1000000_1000000_1000000_1000000_1000000_1000000_1000000_1000000_1000000_1000000_1000000_1000000_1000000_1000000_1000000_1000000_1000000_1000000_1000000_1000000_1000000_1000000_1000000_1000000_1000000_1000000_1000000_1000000_1000000_1000000_1000000_1000000_1000000_1000000_1000000_1000000_1000000_1000000_1000000_1000000_1000000_1000000_1000000_1000000_1000000_1000000_1000000_1000000_1000000_1000000_1000000_1000000_1000000_1000000_1000000_1000000_1000000_1000000_1000000_1000000_1000000_1000000_1000000_1000000_1000000_1000000_1000000_1000000_1000000_1000000_1000000_1000000_1000000_1000000_1000000_1000000_1000000_1000000_1000000_1000000_1000000_1000000,
  1_0000000_0000000_0000000_0306816_0498959_0592711_0644295_0695879_0747464_0799048_0850632_0890876_0897099_0903321_0909544_0915767_0921989_0928212_0934434_0940657_0946880_0953102_0957288_0959438_0961587_0963737_0965886_0968036_0970185_0972335_0974484_0976634_0978783_0980763_0982687_0984611_0986534_0988458_0990382_0992305_0994229_0996153_0998076_1000000_1000000_1000000_1000000_1000000_1000000_1000000_1000000_1000000_1000000_1000000_1000000_1000000_1000000_1000000_1000000_1000000_1000000_1000000_1000000_1000000_1000000_1000000_1000000_1000000_1000000_1000000_1000000_1000000_1000000_1000000_1000000_1000000_1000000_1000000_1000000_1000000_1000000_1000000_1000000_1000000_1000000_1000000_1000000_1000000_1000000_1000000_1000000_1000000_1000000_1000000_1000000_1000000_1000000_1000000_1000000_1000000_1000000_1000000_1000000_1000000_1000000_1000000_1000000_1000000_1000000_1000000_1000000_1000000_1000000_1000000_1000000_1000000_1000000_1000000_1000000_1000000_1000000_1000000_1000000_1000000_1000000_1000000_1000000_1000000_1000000_1000000_1000000_1000000_1000000_1000000,
  1_0000000_0000000_0000000_0307661_0495878_0600353_0649000_0697646_0746293_0794940_0843586_0892233_0898226_0904219_0910212_0916205_0922198_0928191_0934184_0940177_0946169_0952162_0958155_0960344_0962533_0964722_0966911_0969100_0971289_0973478_0975666_0977855_0980044_0982233_0983848_0985463_0987079_0988694_0990309_0991924_0993539_0995154_0996770_0998385_1000000_1000000_1000000_1000000_1000000_1000000_1000000_1000000_1000000_1000000_1000000_1000000_1000000_1000000_1000000_1000000_1000000_1000000_1000000_1000000_1000000_1000000_1000000_1000000_1000000_1000000_1000000_1000000_1000000_1000000_1000000_1000000_1000000_1000000_1000000_1000000_1000000_1000000_1000000_1000000_1000000_1000000_1000000_1000000_1000000_1000000_1000000_1000000_1000000_1000000_1000000_1000000_1000000_1000000_1000000_1000000_1000000_1000000_1000000_1000000_1000000_1000000_1000000_1000000_1000000_1000000_1000000_1000000_1000000_1000000_1000000_1000000_1000000_1000000_1000000_1000000_1000000_1000000_1000000_1000000_1000000_1000000_1000000_1000000_1000000_1000000_1000000_1000000_1000000_1000000_1000000,
  1_0000000_0000000_0000000_0309029_0493495_0608648_0654488_0700327_0746167_0792006_0837846_0883686_0899476_0905249_0911023_0916796_0922570_0928343_0934116_0939890_0945663_0951437_0957210_0961210_0963437_0965663_0967890_0970116_0972343_0974570_0976796_0979023_0981249_0983476_0985476_0986796_0988117_0989437_0990757_0992078_0993398_0994718_0996039_0997359_0998680_1000000_1000000_1000000_1000000_1000000_1000000_1000000_1000000_1000000_1000000_1000000_1000000_1000000_1000000_1000000_1000000_1000000_1000000_1000000_1000000_1000000_1000000_1000000_1000000_1000000_1000000_1000000_1000000_1000000_1000000_1000000_1000000_1000000_1000000_1000000_1000000_1000000_1000000_1000000_1000000_1000000_1000000_1000000_1000000_1000000_1000000_1000000_1000000_1000000_1000000_1000000_1000000_1000000_1000000_1000000_1000000_1000000_1000000_1000000_1000000_1000000_1000000_1000000_1000000_1000000_1000000_1000000_1000000_1000000_1000000_1000000_1000000_1000000_1000000_1000000_1000000_1000000_1000000_1000000_1000000_1000000_1000000_1000000_1000000_1000000_1000000_1000000_1000000_1000000_1000000_1000000,
  1_0000000_0000000_0000000_0310886_0491764_0617553_0660708_0703862_0747017_0790172_0833326_0876481_0900840_0906404_0911967_0917531_0923094_0928658_0934221_0939785_0945348_0950912_0956475_0962039_0964301_0966564_0968827_0971089_0973352_0975614_0977877_0980139_0982402_0984664_0986927_0988577_0989616_0990654_0991693_0992731_0993770_0994808_0995846_0996885_0997923_0998962_1000000_1000000_1000000_1000000_1000000_1000000_1000000_1000000_1000000_1000000_1000000_1000000_1000000_1000000_1000000_1000000_1000000_1000000_1000000_1000000_1000000_1000000_1000000_1000000_1000000_1000000_1000000_1000000_1000000_1000000_1000000_1000000_1000000_1000000_1000000_1000000_1000000_1000000_1000000_1000000_1000000_1000000_1000000_1000000_1000000_1000000_1000000_1000000_1000000_1000000_1000000_1000000_1000000_1000000_1000000_1000000_1000000_1000000_1000000_1000000_1000000_1000000_1000000_1000000_1000000_1000000_1000000_1000000_1000000_1000000_1000000_1000000_1000000_1000000_1000000_1000000_1000000_1000000_1000000_1000000_1000000_1000000_1000000_1000000_1000000_1000000_1000000_1000000_1000000_1000000_1000000,
  1_0000000_0000000_0000000_0313202_0490645_0627030_0667613_0708197_0748781_0789365_0829949_0870533_0902312_0907674_0913037_0918399_0923762_0929124_0934487_0939849_0945212_0950574_0955937_0961299_0965129_0967426_0969723_0972020_0974317_0976614_0978911_0981208_0983505_0985803_0988100_0990397_0991547_0992316_0993084_0993853_0994621_0995389_0996158_0996926_0997695_0998463_0999232_1000000_1000000_1000000_1000000_1000000_1000000_1000000_1000000_1000000_1000000_1000000_1000000_1000000_1000000_1000000_1000000_1000000_1000000_1000000_1000000_1000000_1000000_1000000_1000000_1000000_1000000_1000000_1000000_1000000_1000000_1000000_1000000_1000000_1000000_1000000_1000000_1000000_1000000_1000000_1000000_1000000_1000000_1000000_1000000_1000000_1000000_1000000_1000000_1000000_1000000_1000000_1000000_1000000_1000000_1000000_1000000_1000000_1000000_1000000_1000000_1000000_1000000_1000000_1000000_1000000_1000000_1000000_1000000_1000000_1000000_1000000_1000000_1000000_1000000_1000000_1000000_1000000_1000000_1000000_1000000_1000000_1000000_1000000_1000000_1000000_1000000_1000000_1000000_1000000_1000000_1000000,
  1_0000000_0000000_0000000_0315947_0490097_0637042_0675162_0713282_0751402_0789523_0827643_0865763_0903884_0909053_0914223_0919393_0924563_0929733_0934903_0940073_0945243_0950413_0955583_0960752_0965922_0968252_0970583_0972913_0975243_0977573_0979903_0982233_0984563_0986893_0989223_0991553_0993883_0994393_0994903_0995413_0995922_0996432_0996942_0997451_0997961_0998471_0998981_0999490_1000000_1000000_1000000_1000000_1000000_1000000_1000000_1000000_1000000_1000000_1000000_1000000_1000000_1000000_1000000_1000000_1000000_1000000_1000000_1000000_1000000_1000000_1000000_1000000_1000000_1000000_1000000_1000000_1000000_1000000_1000000_1000000_1000000_1000000_1000000_1000000_1000000_1000000_1000000_1000000_1000000_1000000_1000000_1000000_1000000_1000000_1000000_1000000_1000000_1000000_1000000_1000000_1000000_1000000_1000000_1000000_1000000_1000000_1000000_1000000_1000000_1000000_1000000_1000000_1000000_1000000_1000000_1000000_1000000_1000000_1000000_1000000_1000000_1000000_1000000_1000000_1000000_1000000_1000000_1000000_1000000_1000000_1000000_1000000_1000000_1000000_1000000_1000000_1000000_1000000_1000000,
  1_0000000_0000000_0000000_0319095_0490087_0647556_0683314_0719071_0754828_0790585_0826342_0862100_0897857_0910535_0915520_0920505_0925490_0930476_0935461_0940446_0945431_0950416_0955401_0960386_0965372_0969045_0971407_0973769_0976130_0978492_0980854_0983216_0985578_0987939_0990301_0992663_0995025_0996862_0997123_0997385_0997646_0997908_0998169_0998431_0998692_0998954_0999215_0999477_0999738_1000000_1000000_1000000_1000000_1000000_1000000_1000000_1000000_1000000_1000000_1000000_1000000_1000000_1000000_1000000_1000000_1000000_1000000_1000000_1000000_1000000_1000000_1000000_1000000_1000000_1000000_1000000_1000000_1000000_1000000_1000000_1000000_1000000_1000000_1000000_1000000_1000000_1000000_1000000_1000000_1000000_1000000_1000000_1000000_1000000_1000000_1000000_1000000_1000000_1000000_1000000_1000000_1000000_1000000_1000000_1000000_1000000_1000000_1000000_1000000_1000000_1000000_1000000_1000000_1000000_1000000_1000000_1000000_1000000_1000000_1000000_1000000_1000000_1000000_1000000_1000000_1000000_1000000_1000000_1000000_1000000_1000000_1000000_1000000_1000000_1000000_1000000_1000000_1000000_1000000_1000000,
  1_0000000_0000000_0000000_0322621_0490583_0658544_0692032_0725521_0759010_0792498_0825987_0859476_0892964_0912113_0916920_0921728_0926536_0931344_0936151_0940959_0945767_0950575_0955383_0960190_0964998_0969806_0972198_0974590_0976983_0979375_0981767_0984159_0986551_0988944_0991336_0993728_0996120_0998513_0999720_0999744_0999767_0999790_0999814_0999837_0999860_0999883_0999907_0999930_0999953_0999977_1000000_1000000_1000000_1000000_1000000_1000000_1000000_1000000_1000000_1000000_1000000_1000000_1000000_1000000_1000000_1000000_1000000_1000000_1000000_1000000_1000000_1000000_1000000_1000000_1000000_1000000_1000000_1000000_1000000_1000000_1000000_1000000_1000000_1000000_1000000_1000000_1000000_1000000_1000000_1000000_1000000_1000000_1000000_1000000_1000000_1000000_1000000_1000000_1000000_1000000_1000000_1000000_1000000_1000000_1000000_1000000_1000000_1000000_1000000_1000000_1000000_1000000_1000000_1000000_1000000_1000000_1000000_1000000_1000000_1000000_1000000_1000000_1000000_1000000_1000000_1000000_1000000_1000000_1000000_1000000_1000000_1000000_1000000_1000000_1000000_1000000_1000000_1000000_1000000_1000000_1000000,
  1_0000000_0000000_0000000_0344118_0502763_0661408_0705401_0736655_0767909_0799162_0830416_0861670_0892923_0917469_0921889_0926310_0930731_0935152_0939572_0943993_0948414_0952834_0957255_0961676_0966096_0970517_0973797_0975936_0978075_0980214_0982353_0984492_0986631_0988770_0990909_0993048_0995187_0997326_0999465_1000000_1000000_1000000_1000000_1000000_1000000_1000000_1000000_1000000_1000000_1000000_1000000_1000000_1000000_1000000_1000000_1000000_1000000_1000000_1000000_1000000_1000000_1000000_1000000_1000000_1000000_1000000_1000000_1000000_1000000_1000000_1000000_1000000_1000000_1000000_1000000_1000000_1000000_1000000_1000000_1000000_1000000_1000000_1000000_1000000_1000000_1000000_1000000_1000000_1000000_1000000_1000000_1000000_1000000_1000000_1000000_1000000_1000000_1000000_1000000_1000000_1000000_1000000_1000000_1000000_1000000_1000000_1000000_1000000_1000000_1000000_1000000_1000000_1000000_1000000_1000000_1000000_1000000_1000000_1000000_1000000_1000000_1000000_1000000_1000000_1000000_1000000_1000000_1000000_1000000_1000000_1000000_1000000_1000000_1000000_1000000_1000000_1000000_1000000_1000000_1000000_1000000_1000000,
  1_0000000_0000000_0000000_0368687_0517677_0666667_0719744_0748842_0777941_0807040_0836138_0865237_0894336_0923434_0927459_0931484_0935509_0939534_0943559_0947584_0951608_0955633_0959658_0963683_0967708_0971733_0975758_0977622_0979487_0981352_0983217_0985082_0986946_0988811_0990676_0992541_0994406_0996270_0998135_1000000_1000000_1000000_1000000_1000000_1000000_1000000_1000000_1000000_1000000_1000000_1000000_1000000_1000000_1000000_1000000_1000000_1000000_1000000_1000000_1000000_1000000_1000000_1000000_1000000_1000000_1000000_1000000_1000000_1000000_1000000_1000000_1000000_1000000_1000000_1000000_1000000_1000000_1000000_1000000_1000000_1000000_1000000_1000000_1000000_1000000_1000000_1000000_1000000_1000000_1000000_1000000_1000000_1000000_1000000_1000000_1000000_1000000_1000000_1000000_1000000_1000000_1000000_1000000_1000000_1000000_1000000_1000000_1000000_1000000_1000000_1000000_1000000_1000000_1000000_1000000_1000000_1000000_1000000_1000000_1000000_1000000_1000000_1000000_1000000_1000000_1000000_1000000_1000000_1000000_1000000_1000000_1000000_1000000_1000000_1000000_1000000_1000000_1000000_1000000_1000000_1000000_1000000_1000000,
  1_0000000_0000000_0000000_0394349_0534048_0673747_0734574_0761599_0788624_0815649_0842674_0869699_0896724_0923749_0933238_0936882_0940526_0944170_0947814_0951458_0955102_0958746_0962390_0966034_0969678_0973322_0976966_0979588_0981189_0982790_0984391_0985992_0987593_0989194_0990795_0992396_0993997_0995597_0997198_0998799_1000000_1000000_1000000_1000000_1000000_1000000_1000000_1000000_1000000_1000000_1000000_1000000_1000000_1000000_1000000_1000000_1000000_1000000_1000000_1000000_1000000_1000000_1000000_1000000_1000000_1000000_1000000_1000000_1000000_1000000_1000000_1000000_1000000_1000000_1000000_1000000_1000000_1000000_1000000_1000000_1000000_1000000_1000000_1000000_1000000_1000000_1000000_1000000_1000000_1000000_1000000_1000000_1000000_1000000_1000000_1000000_1000000_1000000_1000000_1000000_1000000_1000000_1000000_1000000_1000000_1000000_1000000_1000000_1000000_1000000_1000000_1000000_1000000_1000000_1000000_1000000_1000000_1000000_1000000_1000000_1000000_1000000_1000000_1000000_1000000_1000000_1000000_1000000_1000000_1000000_1000000_1000000_1000000_1000000_1000000_1000000_1000000_1000000_1000000_1000000_1000000_1000000_1000000_1000000,
  1_0000000_0000000_0000000_0421044_0551796_0682548_0749865_0774893_0799921_0824950_0849978_0875006_0900034_0925062_0939214_0942492_0945769_0949046_0952323_0955600_0958878_0962155_0965432_0968709_0971987_0975264_0978541_0981818_0983165_0984512_0985859_0987205_0988552_0989899_0991246_0992593_0993939_0995286_0996633_0997980_0999327_1000000_1000000_1000000_1000000_1000000_1000000_1000000_1000000_1000000_1000000_1000000_1000000_1000000_1000000_1000000_1000000_1000000_1000000_1000000_1000000_1000000_1000000_1000000_1000000_1000000_1000000_1000000_1000000_1000000_1000000_1000000_1000000_1000000_1000000_1000000_1000000_1000000_1000000_1000000_1000000_1000000_1000000_1000000_1000000_1000000_1000000_1000000_1000000_1000000_1000000_1000000_1000000_1000000_1000000_1000000_1000000_1000000_1000000_1000000_1000000_1000000_1000000_1000000_1000000_1000000_1000000_1000000_1000000_1000000_1000000_1000000_1000000_1000000_1000000_1000000_1000000_1000000_1000000_1000000_1000000_1000000_1000000_1000000_1000000_1000000_1000000_1000000_1000000_1000000_1000000_1000000_1000000_1000000_1000000_1000000_1000000_1000000_1000000_1000000_1000000_1000000_1000000_1000000_1000000,
  1_0000000_0000000_0000000_0448714_0570845_0692975_0765592_0788696_0811800_0834904_0858007_0881111_0904215_0927319_0945377_0948301_0951225_0954149_0957073_0959996_0962920_0965844_0968768_0971691_0974615_0977539_0980463_0983387_0985399_0986501_0987603_0988705_0989807_0990909_0992011_0993113_0994215_0995317_0996419_0997521_0998623_0999725_1000000_1000000_1000000_1000000_1000000_1000000_1000000_1000000_1000000_1000000_1000000_1000000_1000000_1000000_1000000_1000000_1000000_1000000_1000000_1000000_1000000_1000000_1000000_1000000_1000000_1000000_1000000_1000000_1000000_1000000_1000000_1000000_1000000_1000000_1000000_1000000_1000000_1000000_1000000_1000000_1000000_1000000_1000000_1000000_1000000_1000000_1000000_1000000_1000000_1000000_1000000_1000000_1000000_1000000_1000000_1000000_1000000_1000000_1000000_1000000_1000000_1000000_1000000_1000000_1000000_1000000_1000000_1000000_1000000_1000000_1000000_1000000_1000000_1000000_1000000_1000000_1000000_1000000_1000000_1000000_1000000_1000000_1000000_1000000_1000000_1000000_1000000_1000000_1000000_1000000_1000000_1000000_1000000_1000000_1000000_1000000_1000000_1000000_1000000_1000000_1000000_1000000_1000000_1000000,
  1_0000000_0000000_0000000_0477309_0591126_0704942_0781732_0802980_0824228_0845476_0866724_0887973_0909221_0930469_0951717_0954300_0956883_0959466_0962049_0964632_0967215_0969798_0972381_0974964_0977547_0980130_0982713_0985296_0987879_0988745_0989610_0990476_0991342_0992208_0993074_0993939_0994805_0995671_0996537_0997403_0998268_0999134_1000000_1000000_1000000_1000000_1000000_1000000_1000000_1000000_1000000_1000000_1000000_1000000_1000000_1000000_1000000_1000000_1000000_1000000_1000000_1000000_1000000_1000000_1000000_1000000_1000000_1000000_1000000_1000000_1000000_1000000_1000000_1000000_1000000_1000000_1000000_1000000_1000000_1000000_1000000_1000000_1000000_1000000_1000000_1000000_1000000_1000000_1000000_1000000_1000000_1000000_1000000_1000000_1000000_1000000_1000000_1000000_1000000_1000000_1000000_1000000_1000000_1000000_1000000_1000000_1000000_1000000_1000000_1000000_1000000_1000000_1000000_1000000_1000000_1000000_1000000_1000000_1000000_1000000_1000000_1000000_1000000_1000000_1000000_1000000_1000000_1000000_1000000_1000000_1000000_1000000_1000000_1000000_1000000_1000000_1000000_1000000_1000000_1000000_1000000_1000000_1000000_1000000_1000000_1000000_1000000,
  1_0000000_0000000_0000000_0506778_0612573_0718368_0798262_0817719_0837177_0856635_0876093_0895550_0915008_0934466_0953923_0960478_0962733_0964987_0967241_0969495_0971749_0974003_0976257_0978511_0980766_0983020_0985274_0987528_0989782_0991228_0991866_0992504_0993142_0993780_0994418_0995056_0995694_0996332_0996970_0997608_0998246_0998884_0999522_1000000_1000000_1000000_1000000_1000000_1000000_1000000_1000000_1000000_1000000_1000000_1000000_1000000_1000000_1000000_1000000_1000000_1000000_1000000_1000000_1000000_1000000_1000000_1000000_1000000_1000000_1000000_1000000_1000000_1000000_1000000_1000000_1000000_1000000_1000000_1000000_1000000_1000000_1000000_1000000_1000000_1000000_1000000_1000000_1000000_1000000_1000000_1000000_1000000_1000000_1000000_1000000_1000000_1000000_1000000_1000000_1000000_1000000_1000000_1000000_1000000_1000000_1000000_1000000_1000000_1000000_1000000_1000000_1000000_1000000_1000000_1000000_1000000_1000000_1000000_1000000_1000000_1000000_1000000_1000000_1000000_1000000_1000000_1000000_1000000_1000000_1000000_1000000_1000000_1000000_1000000_1000000_1000000_1000000_1000000_1000000_1000000_1000000_1000000_1000000_1000000_1000000_1000000_1000000_1000000,
  1_0000000_0000000_0000000_0537078_0635127_0733177_0815162_0832891_0850620_0868349_0886078_0903807_0921536_0939265_0956994_0966827_0968763_0970700_0972637_0974573_0976510_0978447_0980383_0982320_0984256_0986193_0988130_0990066_0992003_0993939_0994357_0994775_0995193_0995611_0996029_0996447_0996865_0997283_0997701_0998119_0998537_0998955_0999373_0999791_1000000_1000000_1000000_1000000_1000000_1000000_1000000_1000000_1000000_1000000_1000000_1000000_1000000_1000000_1000000_1000000_1000000_1000000_1000000_1000000_1000000_1000000_1000000_1000000_1000000_1000000_1000000_1000000_1000000_1000000_1000000_1000000_1000000_1000000_1000000_1000000_1000000_1000000_1000000_1000000_1000000_1000000_1000000_1000000_1000000_1000000_1000000_1000000_1000000_1000000_1000000_1000000_1000000_1000000_1000000_1000000_1000000_1000000_1000000_1000000_1000000_1000000_1000000_1000000_1000000_1000000_1000000_1000000_1000000_1000000_1000000_1000000_1000000_1000000_1000000_1000000_1000000_1000000_1000000_1000000_1000000_1000000_1000000_1000000_1000000_1000000_1000000_1000000_1000000_1000000_1000000_1000000_1000000_1000000_1000000_1000000_1000000_1000000_1000000_1000000_1000000_1000000_1000000_1000000_1000000,
  1_0000000_0000000_0000000_0568165_0658731_0749298_0832414_0848473_0864532_0880591_0896650_0912708_0928767_0944826_0960885_0973337_0974967_0976596_0978226_0979856_0981486_0983116_0984746_0986376_0988005_0989635_0991265_0992895_0994525_0996155_0997072_0997278_0997483_0997689_0997894_0998100_0998305_0998511_0998716_0998921_0999127_0999332_0999538_0999743_0999949_1000000_1000000_1000000_1000000_1000000_1000000_1000000_1000000_1000000_1000000_1000000_1000000_1000000_1000000_1000000_1000000_1000000_1000000_1000000_1000000_1000000_1000000_1000000_1000000_1000000_1000000_1000000_1000000_1000000_1000000_1000000_1000000_1000000_1000000_1000000_1000000_1000000_1000000_1000000_1000000_1000000_1000000_1000000_1000000_1000000_1000000_1000000_1000000_1000000_1000000_1000000_1000000_1000000_1000000_1000000_1000000_1000000_1000000_1000000_1000000_1000000_1000000_1000000_1000000_1000000_1000000_1000000_1000000_1000000_1000000_1000000_1000000_1000000_1000000_1000000_1000000_1000000_1000000_1000000_1000000_1000000_1000000_1000000_1000000_1000000_1000000_1000000_1000000_1000000_1000000_1000000_1000000_1000000_1000000_1000000_1000000_1000000_1000000_1000000_1000000_1000000_1000000_1000000_1000000_1000000,
  1_0000000_0000000_0000000_0600000_0683333_0766667_0850000_0864444_0878889_0893333_0907778_0922222_0936667_0951111_0965556_0980000_0981333_0982667_0984000_0985333_0986667_0988000_0989333_0990667_0992000_0993333_0994667_0996000_0997333_0998667_1000000_1000000_1000000_1000000_1000000_1000000_1000000_1000000_1000000_1000000_1000000_1000000_1000000_1000000_1000000_1000000_1000000_1000000_1000000_1000000_1000000_1000000_1000000_1000000_1000000_1000000_1000000_1000000_1000000_1000000_1000000_1000000_1000000_1000000_1000000_1000000_1000000_1000000_1000000_1000000_1000000_1000000_1000000_1000000_1000000_1000000_1000000_1000000_1000000_1000000_1000000_1000000_1000000_1000000_1000000_1000000_1000000_1000000_1000000_1000000_1000000_1000000_1000000_1000000_1000000_1000000_1000000_1000000_1000000_1000000_1000000_1000000_1000000_1000000_1000000_1000000_1000000_1000000_1000000_1000000_1000000_1000000_1000000_1000000_1000000_1000000_1000000_1000000_1000000_1000000_1000000_1000000_1000000_1000000_1000000_1000000_1000000_1000000_1000000_1000000_1000000_1000000_1000000_1000000_1000000_1000000_1000000_1000000_1000000_1000000_1000000_1000000_1000000_1000000_1000000_1000000_1000000_1000000_1000000_1000000_1000000,
  1_0000000_0000000_0000000_0600000_0683333_0766667_0850000_0864444_0878889_0893333_0907778_0922222_0936667_0951111_0965556_0980000_0981333_0982667_0984000_0985333_0986667_0988000_0989333_0990667_0992000_0993333_0994667_0996000_0997333_0998667_1000000_1000000_1000000_1000000_1000000_1000000_1000000_1000000_1000000_1000000_1000000_1000000_1000000_1000000_1000000_1000000_1000000_1000000_1000000_1000000_1000000_1000000_1000000_1000000_1000000_1000000_1000000_1000000_1000000_1000000_1000000_1000000_1000000_1000000_1000000_1000000_1000000_1000000_1000000_1000000_1000000_1000000_1000000_1000000_1000000_1000000_1000000_1000000_1000000_1000000_1000000_1000000_1000000_1000000_1000000_1000000_1000000_1000000_1000000_1000000_1000000_1000000_1000000_1000000_1000000_1000000_1000000_1000000_1000000_1000000_1000000_1000000_1000000_1000000_1000000_1000000_1000000_1000000_1000000_1000000_1000000_1000000_1000000_1000000_1000000_1000000_1000000_1000000_1000000_1000000_1000000_1000000_1000000_1000000_1000000_1000000_1000000_1000000_1000000_1000000_1000000_1000000_1000000_1000000_1000000_1000000_1000000_1000000_1000000_1000000_1000000_1000000_1000000_1000000_1000000_1000000_1000000_1000000_1000000_1000000_1000000_1000000,
  1_0000000_0000000_0000000_0600000_0683333_0766667_0850000_0864444_0878889_0893333_0907778_0922222_0936667_0951111_0965556_0980000_0981333_0982667_0984000_0985333_0986667_0988000_0989333_0990667_0992000_0993333_0994667_0996000_0997333_0998667_1000000_1000000_1000000_1000000_1000000_1000000_1000000_1000000_1000000_1000000_1000000_1000000_1000000_1000000_1000000_1000000_1000000_1000000_1000000_1000000_1000000_1000000_1000000_1000000_1000000_1000000_1000000_1000000_1000000_1000000_1000000_1000000_1000000_1000000_1000000_1000000_1000000_1000000_1000000_1000000_1000000_1000000_1000000_1000000_1000000_1000000_1000000_1000000_1000000_1000000_1000000_1000000_1000000_1000000_1000000_1000000_1000000_1000000_1000000_1000000_1000000_1000000_1000000_1000000_1000000_1000000_1000000_1000000_1000000_1000000_1000000_1000000_1000000_1000000_1000000_1000000_1000000_1000000_1000000_1000000_1000000_1000000_1000000_1000000_1000000_1000000_1000000_1000000_1000000_1000000_1000000_1000000_1000000_1000000_1000000_1000000_1000000_1000000_1000000_1000000_1000000_1000000_1000000_1000000_1000000_1000000_1000000_1000000_1000000_1000000_1000000_1000000_1000000_1000000_1000000_1000000_1000000_1000000_1000000_1000000_1000000_1000000_1000000,
  1_0000000_0000000_0000000_0600000_0683333_0766667_0850000_0864444_0878889_0893333_0907778_0922222_0936667_0951111_0965556_0980000_0981333_0982667_0984000_0985333_0986667_0988000_0989333_0990667_0992000_0993333_0994667_0996000_0997333_0998667_1000000_1000000_1000000_1000000_1000000_1000000_1000000_1000000_1000000_1000000_1000000_1000000_1000000_1000000_1000000_1000000_1000000_1000000_1000000_1000000_1000000_1000000_1000000_1000000_1000000_1000000_1000000_1000000_1000000_1000000_1000000_1000000_1000000_1000000_1000000_1000000_1000000_1000000_1000000_1000000_1000000_1000000_1000000_1000000_1000000_1000000_1000000_1000000_1000000_1000000_1000000_1000000_1000000_1000000_1000000_1000000_1000000_1000000_1000000_1000000_1000000_1000000_1000000_1000000_1000000_1000000_1000000_1000000_1000000_1000000_1000000_1000000_1000000_1000000_1000000_1000000_1000000_1000000_1000000_1000000_1000000_1000000_1000000_1000000_1000000_1000000_1000000_1000000_1000000_1000000_1000000_1000000_1000000_1000000_1000000_1000000_1000000_1000000_1000000_1000000_1000000_1000000_1000000_1000000_1000000_1000000_1000000_1000000_1000000_1000000_1000000_1000000_1000000_1000000_1000000_1000000_1000000_1000000_1000000_1000000_1000000_1000000_1000000_1000000,
  1_0000000_0000000_0000000_0600000_0683333_0766667_0850000_0864444_0878889_0893333_0907778_0922222_0936667_0951111_0965556_0980000_0981333_0982667_0984000_0985333_0986667_0988000_0989333_0990667_0992000_0993333_0994667_0996000_0997333_0998667_1000000_1000000_1000000_1000000_1000000_1000000_1000000_1000000_1000000_1000000_1000000_1000000_1000000_1000000_1000000_1000000_1000000_1000000_1000000_1000000_1000000_1000000_1000000_1000000_1000000_1000000_1000000_1000000_1000000_1000000_1000000_1000000_1000000_1000000_1000000_1000000_1000000_1000000_1000000_1000000_1000000_1000000_1000000_1000000_1000000_1000000_1000000_1000000_1000000_1000000_1000000_1000000_1000000_1000000_1000000_1000000_1000000_1000000_1000000_1000000_1000000_1000000_1000000_1000000_1000000_1000000_1000000_1000000_1000000_1000000_1000000_1000000_1000000_1000000_1000000_1000000_1000000_1000000_1000000_1000000_1000000_1000000_1000000_1000000_1000000_1000000_1000000_1000000_1000000_1000000_1000000_1000000_1000000_1000000_1000000_1000000_1000000_1000000_1000000_1000000_1000000_1000000_1000000_1000000_1000000_1000000_1000000_1000000_1000000_1000000_1000000_1000000_1000000_1000000_1000000_1000000_1000000_1000000_1000000_1000000_1000000_1000000_1000000_1000000_1000000,
  1_0000000_0000000_0000000_0600000_0683333_0766667_0850000_0864444_0878889_0893333_0907778_0922222_0936667_0951111_0965556_0980000_0981333_0982667_0984000_0985333_0986667_0988000_0989333_0990667_0992000_0993333_0994667_0996000_0997333_0998667_1000000_1000000_1000000_1000000_1000000_1000000_1000000_1000000_1000000_1000000_1000000_1000000_1000000_1000000_1000000_1000000_1000000_1000000_1000000_1000000_1000000_1000000_1000000_1000000_1000000_1000000_1000000_1000000_1000000_1000000_1000000_1000000_1000000_1000000_1000000_1000000_1000000_1000000_1000000_1000000_1000000_1000000_1000000_1000000_1000000_1000000_1000000_1000000_1000000_1000000_1000000_1000000_1000000_1000000_1000000_1000000_1000000_1000000_1000000_1000000_1000000_1000000_1000000_1000000_1000000_1000000_1000000_1000000_1000000_1000000_1000000_1000000_1000000_1000000_1000000_1000000_1000000_1000000_1000000_1000000_1000000_1000000_1000000_1000000_1000000_1000000_1000000_1000000_1000000_1000000_1000000_1000000_1000000_1000000_1000000_1000000_1000000_1000000_1000000_1000000_1000000_1000000_1000000_1000000_1000000_1000000_1000000_1000000_1000000_1000000_1000000_1000000_1000000_1000000_1000000_1000000_1000000_1000000_1000000_1000000_1000000_1000000_1000000_1000000_1000000_1000000,
  1_0000000_0000000_0000000_0600000_0683333_0766667_0850000_0864444_0878889_0893333_0907778_0922222_0936667_0951111_0965556_0980000_0981333_0982667_0984000_0985333_0986667_0988000_0989333_0990667_0992000_0993333_0994667_0996000_0997333_0998667_1000000_1000000_1000000_1000000_1000000_1000000_1000000_1000000_1000000_1000000_1000000_1000000_1000000_1000000_1000000_1000000_1000000_1000000_1000000_1000000_1000000_1000000_1000000_1000000_1000000_1000000_1000000_1000000_1000000_1000000_1000000_1000000_1000000_1000000_1000000_1000000_1000000_1000000_1000000_1000000_1000000_1000000_1000000_1000000_1000000_1000000_1000000_1000000_1000000_1000000_1000000_1000000_1000000_1000000_1000000_1000000_1000000_1000000_1000000_1000000_1000000_1000000_1000000_1000000_1000000_1000000_1000000_1000000_1000000_1000000_1000000_1000000_1000000_1000000_1000000_1000000_1000000_1000000_1000000_1000000_1000000_1000000_1000000_1000000_1000000_1000000_1000000_1000000_1000000_1000000_1000000_1000000_1000000_1000000_1000000_1000000_1000000_1000000_1000000_1000000_1000000_1000000_1000000_1000000_1000000_1000000_1000000_1000000_1000000_1000000_1000000_1000000_1000000_1000000_1000000_1000000_1000000_1000000_1000000_1000000_1000000_1000000_1000000_1000000_1000000_1000000_1000000,
  1_0000000_0000000_0000000_0600000_0683333_0766667_0850000_0864444_0878889_0893333_0907778_0922222_0936667_0951111_0965556_0980000_0981333_0982667_0984000_0985333_0986667_0988000_0989333_0990667_0992000_0993333_0994667_0996000_0997333_0998667_1000000_1000000_1000000_1000000_1000000_1000000_1000000_1000000_1000000_1000000_1000000_1000000_1000000_1000000_1000000_1000000_1000000_1000000_1000000_1000000_1000000_1000000_1000000_1000000_1000000_1000000_1000000_1000000_1000000_1000000_1000000_1000000_1000000_1000000_1000000_1000000_1000000_1000000_1000000_1000000_1000000_1000000_1000000_1000000_1000000_1000000_1000000_1000000_1000000_1000000_1000000_1000000_1000000_1000000_1000000_1000000_1000000_1000000_1000000_1000000_1000000_1000000_1000000_1000000_1000000_1000000_1000000_1000000_1000000_1000000_1000000_1000000_1000000_1000000_1000000_1000000_1000000_1000000_1000000_1000000_1000000_1000000_1000000_1000000_1000000_1000000_1000000_1000000_1000000_1000000_1000000_1000000_1000000_1000000_1000000_1000000_1000000_1000000_1000000_1000000_1000000_1000000_1000000_1000000_1000000_1000000_1000000_1000000_1000000_1000000_1000000_1000000_1000000_1000000_1000000_1000000_1000000_1000000_1000000_1000000_1000000_1000000_1000000_1000000_1000000_1000000_1000000_1000000,
  1_0000000_0000000_0000000_0600000_0683333_0766667_0850000_0864444_0878889_0893333_0907778_0922222_0936667_0951111_0965556_0980000_0981333_0982667_0984000_0985333_0986667_0988000_0989333_0990667_0992000_0993333_0994667_0996000_0997333_0998667_1000000_1000000_1000000_1000000_1000000_1000000_1000000_1000000_1000000_1000000_1000000_1000000_1000000_1000000_1000000_1000000_1000000_1000000_1000000_1000000_1000000_1000000_1000000_1000000_1000000_1000000_1000000_1000000_1000000_1000000_1000000_1000000_1000000_1000000_1000000_1000000_1000000_1000000_1000000_1000000_1000000_1000000_1000000_1000000_1000000_1000000_1000000_1000000_1000000_1000000_1000000_1000000_1000000_1000000_1000000_1000000_1000000_1000000_1000000_1000000_1000000_1000000_1000000_1000000_1000000_1000000_1000000_1000000_1000000_1000000_1000000_1000000_1000000_1000000_1000000_1000000_1000000_1000000_1000000_1000000_1000000_1000000_1000000_1000000_1000000_1000000_1000000_1000000_1000000_1000000_1000000_1000000_1000000_1000000_1000000_1000000_1000000_1000000_1000000_1000000_1000000_1000000_1000000_1000000_1000000_1000000_1000000_1000000_1000000_1000000_1000000_1000000_1000000_1000000_1000000_1000000_1000000_1000000_1000000_1000000_1000000_1000000_1000000_1000000_1000000_1000000_1000000_1000000_1000000,
  1_0000000_0000000_0000000_0600000_0683333_0766667_0850000_0864444_0878889_0893333_0907778_0922222_0936667_0951111_0965556_0980000_0981333_0982667_0984000_0985333_0986667_0988000_0989333_0990667_0992000_0993333_0994667_0996000_0997333_0998667_1000000_1000000_1000000_1000000_1000000_1000000_1000000_1000000_1000000_1000000_1000000_1000000_1000000_1000000_1000000_1000000_1000000_1000000_1000000_1000000_1000000_1000000_1000000_1000000_1000000_1000000_1000000_1000000_1000000_1000000_1000000_1000000_1000000_1000000_1000000_1000000_1000000_1000000_1000000_1000000_1000000_1000000_1000000_1000000_1000000_1000000_1000000_1000000_1000000_1000000_1000000_1000000_1000000_1000000_1000000_1000000_1000000_1000000_1000000_1000000_1000000_1000000_1000000_1000000_1000000_1000000_1000000_1000000_1000000_1000000_1000000_1000000_1000000_1000000_1000000_1000000_1000000_1000000_1000000_1000000_1000000_1000000_1000000_1000000_1000000_1000000_1000000_1000000_1000000_1000000_1000000_1000000_1000000_1000000_1000000_1000000_1000000_1000000_1000000_1000000_1000000_1000000_1000000_1000000_1000000_1000000_1000000_1000000_1000000_1000000_1000000_1000000_1000000_1000000_1000000_1000000_1000000_1000000_1000000_1000000_1000000_1000000_1000000_1000000_1000000_1000000_1000000_1000000_1000000_1000000,
  1_0000000_0000000_0000000_0600000_0683333_0766667_0850000_0864444_0878889_0893333_0907778_0922222_0936667_0951111_0965556_0980000_0981333_0982667_0984000_0985333_0986667_0988000_0989333_0990667_0992000_0993333_0994667_0996000_0997333_0998667_1000000_1000000_1000000_1000000_1000000_1000000_1000000_1000000_1000000_1000000_1000000_1000000_1000000_1000000_1000000_1000000_1000000_1000000_1000000_1000000_1000000_1000000_1000000_1000000_1000000_1000000_1000000_1000000_1000000_1000000_1000000_1000000_1000000_1000000_1000000_1000000_1000000_1000000_1000000_1000000_1000000_1000000_1000000_1000000_1000000_1000000_1000000_1000000_1000000_1000000_1000000_1000000_1000000_1000000_1000000_1000000_1000000_1000000_1000000_1000000_1000000_1000000_1000000_1000000_1000000_1000000_1000000_1000000_1000000_1000000_1000000_1000000_1000000_1000000_1000000_1000000_1000000_1000000_1000000_1000000_1000000_1000000_1000000_1000000_1000000_1000000_1000000_1000000_1000000_1000000_1000000_1000000_1000000_1000000_1000000_1000000_1000000_1000000_1000000_1000000_1000000_1000000_1000000_1000000_1000000_1000000_1000000_1000000_1000000_1000000_1000000_1000000_1000000_1000000_1000000_1000000_1000000_1000000_1000000_1000000_1000000_1000000_1000000_1000000_1000000_1000000_1000000_1000000_1000000_1000000_1000000,
  1_0000000_0000000_0000000_0600000_0683333_0766667_0850000_0864444_0878889_0893333_0907778_0922222_0936667_0951111_0965556_0980000_0981333_0982667_0984000_0985333_0986667_0988000_0989333_0990667_0992000_0993333_0994667_0996000_0997333_0998667_1000000_1000000_1000000_1000000_1000000_1000000_1000000_1000000_1000000_1000000_1000000_1000000_1000000_1000000_1000000_1000000_1000000_1000000_1000000_1000000_1000000_1000000_1000000_1000000_1000000_1000000_1000000_1000000_1000000_1000000_1000000_1000000_1000000_1000000_1000000_1000000_1000000_1000000_1000000_1000000_1000000_1000000_1000000_1000000_1000000_1000000_1000000_1000000_1000000_1000000_1000000_1000000_1000000_1000000_1000000_1000000_1000000_1000000_1000000_1000000_1000000_1000000_1000000_1000000_1000000_1000000_1000000_1000000_1000000_1000000_1000000_1000000_1000000_1000000_1000000_1000000_1000000_1000000_1000000_1000000_1000000_1000000_1000000_1000000_1000000_1000000_1000000_1000000_1000000_1000000_1000000_1000000_1000000_1000000_1000000_1000000_1000000_1000000_1000000_1000000_1000000_1000000_1000000_1000000_1000000_1000000_1000000_1000000_1000000_1000000_1000000_1000000_1000000_1000000_1000000_1000000_1000000_1000000_1000000_1000000_1000000_1000000_1000000_1000000_1000000_1000000_1000000_1000000_1000000_1000000_1000000_1000000,
  1_0000000_0000000_0000000_0600000_0683333_0766667_0850000_0864444_0878889_0893333_0907778_0922222_0936667_0951111_0965556_0980000_0981333_0982667_0984000_0985333_0986667_0988000_0989333_0990667_0992000_0993333_0994667_0996000_0997333_0998667_1000000_1000000_1000000_1000000_1000000_1000000_1000000_1000000_1000000_1000000_1000000_1000000_1000000_1000000_1000000_1000000_1000000_1000000_1000000_1000000_1000000_1000000_1000000_1000000_1000000_1000000_1000000_1000000_1000000_1000000_1000000_1000000_1000000_1000000_1000000_1000000_1000000_1000000_1000000_1000000_1000000_1000000_1000000_1000000_1000000_1000000_1000000_1000000_1000000_1000000_1000000_1000000_1000000_1000000_1000000_1000000_1000000_1000000_1000000_1000000_1000000_1000000_1000000_1000000_1000000_1000000_1000000_1000000_1000000_1000000_1000000_1000000_1000000_1000000_1000000_1000000_1000000_1000000_1000000_1000000_1000000_1000000_1000000_1000000_1000000_1000000_1000000_1000000_1000000_1000000_1000000_1000000_1000000_1000000_1000000_1000000_1000000_1000000_1000000_1000000_1000000_1000000_1000000_1000000_1000000_1000000_1000000_1000000_1000000_1000000_1000000_1000000_1000000_1000000_1000000_1000000_1000000_1000000_1000000_1000000_1000000_1000000_1000000_1000000_1000000_1000000_1000000_1000000_1000000_1000000_1000000_1000000_1000000,
  1_0000000_0000000_0000000_0600000_0683333_0766667_0850000_0864444_0878889_0893333_0907778_0922222_0936667_0951111_0965556_0980000_0981333_0982667_0984000_0985333_0986667_0988000_0989333_0990667_0992000_0993333_0994667_0996000_0997333_0998667_1000000_1000000_1000000_1000000_1000000_1000000_1000000_1000000_1000000_1000000_1000000_1000000_1000000_1000000_1000000_1000000_1000000_1000000_1000000_1000000_1000000_1000000_1000000_1000000_1000000_1000000_1000000_1000000_1000000_1000000_1000000_1000000_1000000_1000000_1000000_1000000_1000000_1000000_1000000_1000000_1000000_1000000_1000000_1000000_1000000_1000000_1000000_1000000_1000000_1000000_1000000_1000000_1000000_1000000_1000000_1000000_1000000_1000000_1000000_1000000_1000000_1000000_1000000_1000000_1000000_1000000_1000000_1000000_1000000_1000000_1000000_1000000_1000000_1000000_1000000_1000000_1000000_1000000_1000000_1000000_1000000_1000000_1000000_1000000_1000000_1000000_1000000_1000000_1000000_1000000_1000000_1000000_1000000_1000000_1000000_1000000_1000000_1000000_1000000_1000000_1000000_1000000_1000000_1000000_1000000_1000000_1000000_1000000_1000000_1000000_1000000_1000000_1000000_1000000_1000000_1000000_1000000_1000000_1000000_1000000_1000000_1000000_1000000_1000000_1000000_1000000_1000000_1000000_1000000_1000000_1000000_1000000_1000000_1000000,
  1_0000000_0000000_0000000_0600000_0683333_0766667_0850000_0864444_0878889_0893333_0907778_0922222_0936667_0951111_0965556_0980000_0981333_0982667_0984000_0985333_0986667_0988000_0989333_0990667_0992000_0993333_0994667_0996000_0997333_0998667_1000000_1000000_1000000_1000000_1000000_1000000_1000000_1000000_1000000_1000000_1000000_1000000_1000000_1000000_1000000_1000000_1000000_1000000_1000000_1000000_1000000_1000000_1000000_1000000_1000000_1000000_1000000_1000000_1000000_1000000_1000000_1000000_1000000_1000000_1000000_1000000_1000000_1000000_1000000_1000000_1000000_1000000_1000000_1000000_1000000_1000000_1000000_1000000_1000000_1000000_1000000_1000000_1000000_1000000_1000000_1000000_1000000_1000000_1000000_1000000_1000000_1000000_1000000_1000000_1000000_1000000_1000000_1000000_1000000_1000000_1000000_1000000_1000000_1000000_1000000_1000000_1000000_1000000_1000000_1000000_1000000_1000000_1000000_1000000_1000000_1000000_1000000_1000000_1000000_1000000_1000000_1000000_1000000_1000000_1000000_1000000_1000000_1000000_1000000_1000000_1000000_1000000_1000000_1000000_1000000_1000000_1000000_1000000_1000000_1000000_1000000_1000000_1000000_1000000_1000000_1000000_1000000_1000000_1000000_1000000_1000000_1000000_1000000_1000000_1000000_1000000_1000000_1000000_1000000_1000000_1000000_1000000_1000000_1000000_1000000,
  1_0000000_0000000_0000000_0600000_0683333_0766667_0850000_0864444_0878889_0893333_0907778_0922222_0936667_0951111_0965556_0980000_0981333_0982667_0984000_0985333_0986667_0988000_0989333_0990667_0992000_0993333_0994667_0996000_0997333_0998667_1000000_1000000_1000000_1000000_1000000_1000000_1000000_1000000_1000000_1000000_1000000_1000000_1000000_1000000_1000000_1000000_1000000_1000000_1000000_1000000_1000000_1000000_1000000_1000000_1000000_1000000_1000000_1000000_1000000_1000000_1000000_1000000_1000000_1000000_1000000_1000000_1000000_1000000_1000000_1000000_1000000_1000000_1000000_1000000_1000000_1000000_1000000_1000000_1000000_1000000_1000000_1000000_1000000_1000000_1000000_1000000_1000000_1000000_1000000_1000000_1000000_1000000_1000000_1000000_1000000_1000000_1000000_1000000_1000000_1000000_1000000_1000000_1000000_1000000_1000000_1000000_1000000_1000000_1000000_1000000_1000000_1000000_1000000_1000000_1000000_1000000_1000000_1000000_1000000_1000000_1000000_1000000_1000000_1000000_1000000_1000000_1000000_1000000_1000000_1000000_1000000_1000000_1000000_1000000_1000000_1000000_1000000_1000000_1000000_1000000_1000000_1000000_1000000_1000000_1000000_1000000_1000000_1000000_1000000_1000000_1000000_1000000_1000000_1000000_1000000_1000000_1000000_1000000_1000000_1000000_1000000_1000000_1000000_1000000_1000000_1000000,
  1_0000000_0000000_0000000_0600000_0683333_0766667_0850000_0864444_0878889_0893333_0907778_0922222_0936667_0951111_0965556_0980000_0981333_0982667_0984000_0985333_0986667_0988000_0989333_0990667_0992000_0993333_0994667_0996000_0997333_0998667_1000000_1000000_1000000_1000000_1000000_1000000_1000000_1000000_1000000_1000000_1000000_1000000_1000000_1000000_1000000_1000000_1000000_1000000_1000000_1000000_1000000_1000000_1000000_1000000_1000000_1000000_1000000_1000000_1000000_1000000_1000000_1000000_1000000_1000000_1000000_1000000_1000000_1000000_1000000_1000000_1000000_1000000_1000000_1000000_1000000_1000000_1000000_1000000_1000000_1000000_1000000_1000000_1000000_1000000_1000000_1000000_1000000_1000000_1000000_1000000_1000000_1000000_1000000_1000000_1000000_1000000_1000000_1000000_1000000_1000000_1000000_1000000_1000000_1000000_1000000_1000000_1000000_1000000_1000000_1000000_1000000_1000000_1000000_1000000_1000000_1000000_1000000_1000000_1000000_1000000_1000000_1000000_1000000_1000000_1000000_1000000_1000000_1000000_1000000_1000000_1000000_1000000_1000000_1000000_1000000_1000000_1000000_1000000_1000000_1000000_1000000_1000000_1000000_1000000_1000000_1000000_1000000_1000000_1000000_1000000_1000000_1000000_1000000_1000000_1000000_1000000_1000000_1000000_1000000_1000000_1000000_1000000_1000000_1000000_1000000_1000000_1000000,
  1_0000000_0000000_0000000_0600000_0683333_0766667_0850000_0864444_0878889_0893333_0907778_0922222_0936667_0951111_0965556_0980000_0981333_0982667_0984000_0985333_0986667_0988000_0989333_0990667_0992000_0993333_0994667_0996000_0997333_0998667_1000000_1000000_1000000_1000000_1000000_1000000_1000000_1000000_1000000_1000000_1000000_1000000_1000000_1000000_1000000_1000000_1000000_1000000_1000000_1000000_1000000_1000000_1000000_1000000_1000000_1000000_1000000_1000000_1000000_1000000_1000000_1000000_1000000_1000000_1000000_1000000_1000000_1000000_1000000_1000000_1000000_1000000_1000000_1000000_1000000_1000000_1000000_1000000_1000000_1000000_1000000_1000000_1000000_1000000_1000000_1000000_1000000_1000000_1000000_1000000_1000000_1000000_1000000_1000000_1000000_1000000_1000000_1000000_1000000_1000000_1000000_1000000_1000000_1000000_1000000_1000000_1000000_1000000_1000000_1000000_1000000_1000000_1000000_1000000_1000000_1000000_1000000_1000000_1000000_1000000_1000000_1000000_1000000_1000000_1000000_1000000_1000000_1000000_1000000_1000000_1000000_1000000_1000000_1000000_1000000_1000000_1000000_1000000_1000000_1000000_1000000_1000000_1000000_1000000_1000000_1000000_1000000_1000000_1000000_1000000_1000000_1000000_1000000_1000000_1000000_1000000_1000000_1000000_1000000_1000000_1000000_1000000_1000000_1000000_1000000_1000000_1000000_1000000,
  1_0000000_0000000_0000000_0600000_0683333_0766667_0850000_0864444_0878889_0893333_0907778_0922222_0936667_0951111_0965556_0980000_0981333_0982667_0984000_0985333_0986667_0988000_0989333_0990667_0992000_0993333_0994667_0996000_0997333_0998667_1000000_1000000_1000000_1000000_1000000_1000000_1000000_1000000_1000000_1000000_1000000_1000000_1000000_1000000_1000000_1000000_1000000_1000000_1000000_1000000_1000000_1000000_1000000_1000000_1000000_1000000_1000000_1000000_1000000_1000000_1000000_1000000_1000000_1000000_1000000_1000000_1000000_1000000_1000000_1000000_1000000_1000000_1000000_1000000_1000000_1000000_1000000_1000000_1000000_1000000_1000000_1000000_1000000_1000000_1000000_1000000_1000000_1000000_1000000_1000000_1000000_1000000_1000000_1000000_1000000_1000000_1000000_1000000_1000000_1000000_1000000_1000000_1000000_1000000_1000000_1000000_1000000_1000000_1000000_1000000_1000000_1000000_1000000_1000000_1000000_1000000_1000000_1000000_1000000_1000000_1000000_1000000_1000000_1000000_1000000_1000000_1000000_1000000_1000000_1000000_1000000_1000000_1000000_1000000_1000000_1000000_1000000_1000000_1000000_1000000_1000000_1000000_1000000_1000000_1000000_1000000_1000000_1000000_1000000_1000000_1000000_1000000_1000000_1000000_1000000_1000000_1000000_1000000_1000000_1000000_1000000_1000000_1000000_1000000_1000000_1000000_1000000_1000000_1000000,
  1_0000000_0000000_0000000_0600000_0683333_0766667_0850000_0864444_0878889_0893333_0907778_0922222_0936667_0951111_0965556_0980000_0981333_0982667_0984000_0985333_0986667_0988000_0989333_0990667_0992000_0993333_0994667_0996000_0997333_0998667_1000000_1000000_1000000_1000000_1000000_1000000_1000000_1000000_1000000_1000000_1000000_1000000_1000000_1000000_1000000_1000000_1000000_1000000_1000000_1000000_1000000_1000000_1000000_1000000_1000000_1000000_1000000_1000000_1000000_1000000_1000000_1000000_1000000_1000000_1000000_1000000_1000000_1000000_1000000_1000000_1000000_1000000_1000000_1000000_1000000_1000000_1000000_1000000_1000000_1000000_1000000_1000000_1000000_1000000_1000000_1000000_1000000_1000000_1000000_1000000_1000000_1000000_1000000_1000000_1000000_1000000_1000000_1000000_1000000_1000000_1000000_1000000_1000000_1000000_1000000_1000000_1000000_1000000_1000000_1000000_1000000_1000000_1000000_1000000_1000000_1000000_1000000_1000000_1000000_1000000_1000000_1000000_1000000_1000000_1000000_1000000_1000000_1000000_1000000_1000000_1000000_1000000_1000000_1000000_1000000_1000000_1000000_1000000_1000000_1000000_1000000_1000000_1000000_1000000_1000000_1000000_1000000_1000000_1000000_1000000_1000000_1000000_1000000_1000000_1000000_1000000_1000000_1000000_1000000_1000000_1000000_1000000_1000000_1000000_1000000_1000000_1000000_1000000_1000000_1000000,
  1_0000000_0000000_0000000_0600000_0683333_0766667_0850000_0864444_0878889_0893333_0907778_0922222_0936667_0951111_0965556_0980000_0981333_0982667_0984000_0985333_0986667_0988000_0989333_0990667_0992000_0993333_0994667_0996000_0997333_0998667_1000000_1000000_1000000_1000000_1000000_1000000_1000000_1000000_1000000_1000000_1000000_1000000_1000000_1000000_1000000_1000000_1000000_1000000_1000000_1000000_1000000_1000000_1000000_1000000_1000000_1000000_1000000_1000000_1000000_1000000_1000000_1000000_1000000_1000000_1000000_1000000_1000000_1000000_1000000_1000000_1000000_1000000_1000000_1000000_1000000_1000000_1000000_1000000_1000000_1000000_1000000_1000000_1000000_1000000_1000000_1000000_1000000_1000000_1000000_1000000_1000000_1000000_1000000_1000000_1000000_1000000_1000000_1000000_1000000_1000000_1000000_1000000_1000000_1000000_1000000_1000000_1000000_1000000_1000000_1000000_1000000_1000000_1000000_1000000_1000000_1000000_1000000_1000000_1000000_1000000_1000000_1000000_1000000_1000000_1000000_1000000_1000000_1000000_1000000_1000000_1000000_1000000_1000000_1000000_1000000_1000000_1000000_1000000_1000000_1000000_1000000_1000000_1000000_1000000_1000000_1000000_1000000_1000000_1000000_1000000_1000000_1000000_1000000_1000000_1000000_1000000_1000000_1000000_1000000_1000000_1000000_1000000_1000000_1000000_1000000_1000000_1000000_1000000_1000000_1000000_1000000,
  1_0000000_0000000_0000000_0600000_0683333_0766667_0850000_0864444_0878889_0893333_0907778_0922222_0936667_0951111_0965556_0980000_0981333_0982667_0984000_0985333_0986667_0988000_0989333_0990667_0992000_0993333_0994667_0996000_0997333_0998667_1000000_1000000_1000000_1000000_1000000_1000000_1000000_1000000_1000000_1000000_1000000_1000000_1000000_1000000_1000000_1000000_1000000_1000000_1000000_1000000_1000000_1000000_1000000_1000000_1000000_1000000_1000000_1000000_1000000_1000000_1000000_1000000_1000000_1000000_1000000_1000000_1000000_1000000_1000000_1000000_1000000_1000000_1000000_1000000_1000000_1000000_1000000_1000000_1000000_1000000_1000000_1000000_1000000_1000000_1000000_1000000_1000000_1000000_1000000_1000000_1000000_1000000_1000000_1000000_1000000_1000000_1000000_1000000_1000000_1000000_1000000_1000000_1000000_1000000_1000000_1000000_1000000_1000000_1000000_1000000_1000000_1000000_1000000_1000000_1000000_1000000_1000000_1000000_1000000_1000000_1000000_1000000_1000000_1000000_1000000_1000000_1000000_1000000_1000000_1000000_1000000_1000000_1000000_1000000_1000000_1000000_1000000_1000000_1000000_1000000_1000000_1000000_1000000_1000000_1000000_1000000_1000000_1000000_1000000_1000000_1000000_1000000_1000000_1000000_1000000_1000000_1000000_1000000_1000000_1000000_1000000_1000000_1000000_1000000_1000000_1000000_1000000_1000000_1000000_1000000_1000000_1000000,
  1_0000000_0000000_0000000_0600000_0683333_0766667_0850000_0864444_0878889_0893333_0907778_0922222_0936667_0951111_0965556_0980000_0981333_0982667_0984000_0985333_0986667_0988000_0989333_0990667_0992000_0993333_0994667_0996000_0997333_0998667_1000000_1000000_1000000_1000000_1000000_1000000_1000000_1000000_1000000_1000000_1000000_1000000_1000000_1000000_1000000_1000000_1000000_1000000_1000000_1000000_1000000_1000000_1000000_1000000_1000000_1000000_1000000_1000000_1000000_1000000_1000000_1000000_1000000_1000000_1000000_1000000_1000000_1000000_1000000_1000000_1000000_1000000_1000000_1000000_1000000_1000000_1000000_1000000_1000000_1000000_1000000_1000000_1000000_1000000_1000000_1000000_1000000_1000000_1000000_1000000_1000000_1000000_1000000_1000000_1000000_1000000_1000000_1000000_1000000_1000000_1000000_1000000_1000000_1000000_1000000_1000000_1000000_1000000_1000000_1000000_1000000_1000000_1000000_1000000_1000000_1000000_1000000_1000000_1000000_1000000_1000000_1000000_1000000_1000000_1000000_1000000_1000000_1000000_1000000_1000000_1000000_1000000_1000000_1000000_1000000_1000000_1000000_1000000_1000000_1000000_1000000_1000000_1000000_1000000_1000000_1000000_1000000_1000000_1000000_1000000_1000000_1000000_1000000_1000000_1000000_1000000_1000000_1000000_1000000_1000000_1000000_1000000_1000000_1000000_1000000_1000000_1000000_1000000_1000000_1000000_1000000_1000000_1000000,
  1_0000000_0000000_0000000_0600000_0683333_0766667_0850000_0864444_0878889_0893333_0907778_0922222_0936667_0951111_0965556_0980000_0981333_0982667_0984000_0985333_0986667_0988000_0989333_0990667_0992000_0993333_0994667_0996000_0997333_0998667_1000000_1000000_1000000_1000000_1000000_1000000_1000000_1000000_1000000_1000000_1000000_1000000_1000000_1000000_1000000_1000000_1000000_1000000_1000000_1000000_1000000_1000000_1000000_1000000_1000000_1000000_1000000_1000000_1000000_1000000_1000000_1000000_1000000_1000000_1000000_1000000_1000000_1000000_1000000_1000000_1000000_1000000_1000000_1000000_1000000_1000000_1000000_1000000_1000000_1000000_1000000_1000000_1000000_1000000_1000000_1000000_1000000_1000000_1000000_1000000_1000000_1000000_1000000_1000000_1000000_1000000_1000000_1000000_1000000_1000000_1000000_1000000_1000000_1000000_1000000_1000000_1000000_1000000_1000000_1000000_1000000_1000000_1000000_1000000_1000000_1000000_1000000_1000000_1000000_1000000_1000000_1000000_1000000_1000000_1000000_1000000_1000000_1000000_1000000_1000000_1000000_1000000_1000000_1000000_1000000_1000000_1000000_1000000_1000000_1000000_1000000_1000000_1000000_1000000_1000000_1000000_1000000_1000000_1000000_1000000_1000000_1000000_1000000_1000000_1000000_1000000_1000000_1000000_1000000_1000000_1000000_1000000_1000000_1000000_1000000_1000000_1000000_1000000_1000000_1000000_1000000_1000000_1000000_1000000,
  1_0000000_0000000_0000000_0600000_0683333_0766667_0850000_0864444_0878889_0893333_0907778_0922222_0936667_0951111_0965556_0980000_0981333_0982667_0984000_0985333_0986667_0988000_0989333_0990667_0992000_0993333_0994667_0996000_0997333_0998667_1000000_1000000_1000000_1000000_1000000_1000000_1000000_1000000_1000000_1000000_1000000_1000000_1000000_1000000_1000000_1000000_1000000_1000000_1000000_1000000_1000000_1000000_1000000_1000000_1000000_1000000_1000000_1000000_1000000_1000000_1000000_1000000_1000000_1000000_1000000_1000000_1000000_1000000_1000000_1000000_1000000_1000000_1000000_1000000_1000000_1000000_1000000_1000000_1000000_1000000_1000000_1000000_1000000_1000000_1000000_1000000_1000000_1000000_1000000_1000000_1000000_1000000_1000000_1000000_1000000_1000000_1000000_1000000_1000000_1000000_1000000_1000000_1000000_1000000_1000000_1000000_1000000_1000000_1000000_1000000_1000000_1000000_1000000_1000000_1000000_1000000_1000000_1000000_1000000_1000000_1000000_1000000_1000000_1000000_1000000_1000000_1000000_1000000_1000000_1000000_1000000_1000000_1000000_1000000_1000000_1000000_1000000_1000000_1000000_1000000_1000000_1000000_1000000_1000000_1000000_1000000_1000000_1000000_1000000_1000000_1000000_1000000_1000000_1000000_1000000_1000000_1000000_1000000_1000000_1000000_1000000_1000000_1000000_1000000_1000000_1000000_1000000_1000000_1000000_1000000_1000000_1000000_1000000_1000000_1000000,
  1_0000000_0000000_0000000_0600000_0683333_0766667_0850000_0864444_0878889_0893333_0907778_0922222_0936667_0951111_0965556_0980000_0981333_0982667_0984000_0985333_0986667_0988000_0989333_0990667_0992000_0993333_0994667_0996000_0997333_0998667_1000000_1000000_1000000_1000000_1000000_1000000_1000000_1000000_1000000_1000000_1000000_1000000_1000000_1000000_1000000_1000000_1000000_1000000_1000000_1000000_1000000_1000000_1000000_1000000_1000000_1000000_1000000_1000000_1000000_1000000_1000000_1000000_1000000_1000000_1000000_1000000_1000000_1000000_1000000_1000000_1000000_1000000_1000000_1000000_1000000_1000000_1000000_1000000_1000000_1000000_1000000_1000000_1000000_1000000_1000000_1000000_1000000_1000000_1000000_1000000_1000000_1000000_1000000_1000000_1000000_1000000_1000000_1000000_1000000_1000000_1000000_1000000_1000000_1000000_1000000_1000000_1000000_1000000_1000000_1000000_1000000_1000000_1000000_1000000_1000000_1000000_1000000_1000000_1000000_1000000_1000000_1000000_1000000_1000000_1000000_1000000_1000000_1000000_1000000_1000000_1000000_1000000_1000000_1000000_1000000_1000000_1000000_1000000_1000000_1000000_1000000_1000000_1000000_1000000_1000000_1000000_1000000_1000000_1000000_1000000_1000000_1000000_1000000_1000000_1000000_1000000_1000000_1000000_1000000_1000000_1000000_1000000_1000000_1000000_1000000_1000000_1000000_1000000_1000000_1000000_1000000_1000000_1000000_1000000_1000000_1000000,
  1_0000000_0000000_0000000_0600000_0683333_0766667_0850000_0864444_0878889_0893333_0907778_0922222_0936667_0951111_0965556_0980000_0981333_0982667_0984000_0985333_0986667_0988000_0989333_0990667_0992000_0993333_0994667_0996000_0997333_0998667_1000000_1000000_1000000_1000000_1000000_1000000_1000000_1000000_1000000_1000000_1000000_1000000_1000000_1000000_1000000_1000000_1000000_1000000_1000000_1000000_1000000_1000000_1000000_1000000_1000000_1000000_1000000_1000000_1000000_1000000_1000000_1000000_1000000_1000000_1000000_1000000_1000000_1000000_1000000_1000000_1000000_1000000_1000000_1000000_1000000_1000000_1000000_1000000_1000000_1000000_1000000_1000000_1000000_1000000_1000000_1000000_1000000_1000000_1000000_1000000_1000000_1000000_1000000_1000000_1000000_1000000_1000000_1000000_1000000_1000000_1000000_1000000_1000000_1000000_1000000_1000000_1000000_1000000_1000000_1000000_1000000_1000000_1000000_1000000_1000000_1000000_1000000_1000000_1000000_1000000_1000000_1000000_1000000_1000000_1000000_1000000_1000000_1000000_1000000_1000000_1000000_1000000_1000000_1000000_1000000_1000000_1000000_1000000_1000000_1000000_1000000_1000000_1000000_1000000_1000000_1000000_1000000_1000000_1000000_1000000_1000000_1000000_1000000_1000000_1000000_1000000_1000000_1000000_1000000_1000000_1000000_1000000_1000000_1000000_1000000_1000000_1000000_1000000_1000000_1000000_1000000_1000000_1000000_1000000_1000000_1000000_1000000,
  1_0000000_0000000_0000000_0600000_0683333_0766667_0850000_0864444_0878889_0893333_0907778_0922222_0936667_0951111_0965556_0980000_0981333_0982667_0984000_0985333_0986667_0988000_0989333_0990667_0992000_0993333_0994667_0996000_0997333_0998667_1000000_1000000_1000000_1000000_1000000_1000000_1000000_1000000_1000000_1000000_1000000_1000000_1000000_1000000_1000000_1000000_1000000_1000000_1000000_1000000_1000000_1000000_1000000_1000000_1000000_1000000_1000000_1000000_1000000_1000000_1000000_1000000_1000000_1000000_1000000_1000000_1000000_1000000_1000000_1000000_1000000_1000000_1000000_1000000_1000000_1000000_1000000_1000000_1000000_1000000_1000000_1000000_1000000_1000000_1000000_1000000_1000000_1000000_1000000_1000000_1000000_1000000_1000000_1000000_1000000_1000000_1000000_1000000_1000000_1000000_1000000_1000000_1000000_1000000_1000000_1000000_1000000_1000000_1000000_1000000_1000000_1000000_1000000_1000000_1000000_1000000_1000000_1000000_1000000_1000000_1000000_1000000_1000000_1000000_1000000_1000000_1000000_1000000_1000000_1000000_1000000_1000000_1000000_1000000_1000000_1000000_1000000_1000000_1000000_1000000_1000000_1000000_1000000_1000000_1000000_1000000_1000000_1000000_1000000_1000000_1000000_1000000_1000000_1000000_1000000_1000000_1000000_1000000_1000000_1000000_1000000_1000000_1000000_1000000_1000000_1000000_1000000_1000000_1000000_1000000_1000000_1000000_1000000_1000000_1000000_1000000_1000000_1000000,
  1_0000000_0000000_0000000_0600000_0683333_0766667_0850000_0864444_0878889_0893333_0907778_0922222_0936667_0951111_0965556_0980000_0981333_0982667_0984000_0985333_0986667_0988000_0989333_0990667_0992000_0993333_0994667_0996000_0997333_0998667_1000000_1000000_1000000_1000000_1000000_1000000_1000000_1000000_1000000_1000000_1000000_1000000_1000000_1000000_1000000_1000000_1000000_1000000_1000000_1000000_1000000_1000000_1000000_1000000_1000000_1000000_1000000_1000000_1000000_1000000_1000000_1000000_1000000_1000000_1000000_1000000_1000000_1000000_1000000_1000000_1000000_1000000_1000000_1000000_1000000_1000000_1000000_1000000_1000000_1000000_1000000_1000000_1000000_1000000_1000000_1000000_1000000_1000000_1000000_1000000_1000000_1000000_1000000_1000000_1000000_1000000_1000000_1000000_1000000_1000000_1000000_1000000_1000000_1000000_1000000_1000000_1000000_1000000_1000000_1000000_1000000_1000000_1000000_1000000_1000000_1000000_1000000_1000000_1000000_1000000_1000000_1000000_1000000_1000000_1000000_1000000_1000000_1000000_1000000_1000000_1000000_1000000_1000000_1000000_1000000_1000000_1000000_1000000_1000000_1000000_1000000_1000000_1000000_1000000_1000000_1000000_1000000_1000000_1000000_1000000_1000000_1000000_1000000_1000000_1000000_1000000_1000000_1000000_1000000_1000000_1000000_1000000_1000000_1000000_1000000_1000000_1000000_1000000_1000000_1000000_1000000_1000000_1000000_1000000_1000000_1000000_1000000_1000000_1000000,
  1_0000000_0000000_0000000_0600000_0683333_0766667_0850000_0864444_0878889_0893333_0907778_0922222_0936667_0951111_0965556_0980000_0981333_0982667_0984000_0985333_0986667_0988000_0989333_0990667_0992000_0993333_0994667_0996000_0997333_0998667_1000000_1000000_1000000_1000000_1000000_1000000_1000000_1000000_1000000_1000000_1000000_1000000_1000000_1000000_1000000_1000000_1000000_1000000_1000000_1000000_1000000_1000000_1000000_1000000_1000000_1000000_1000000_1000000_1000000_1000000_1000000_1000000_1000000_1000000_1000000_1000000_1000000_1000000_1000000_1000000_1000000_1000000_1000000_1000000_1000000_1000000_1000000_1000000_1000000_1000000_1000000_1000000_1000000_1000000_1000000_1000000_1000000_1000000_1000000_1000000_1000000_1000000_1000000_1000000_1000000_1000000_1000000_1000000_1000000_1000000_1000000_1000000_1000000_1000000_1000000_1000000_1000000_1000000_1000000_1000000_1000000_1000000_1000000_1000000_1000000_1000000_1000000_1000000_1000000_1000000_1000000_1000000_1000000_1000000_1000000_1000000_1000000_1000000_1000000_1000000_1000000_1000000_1000000_1000000_1000000_1000000_1000000_1000000_1000000_1000000_1000000_1000000_1000000_1000000_1000000_1000000_1000000_1000000_1000000_1000000_1000000_1000000_1000000_1000000_1000000_1000000_1000000_1000000_1000000_1000000_1000000_1000000_1000000_1000000_1000000_1000000_1000000_1000000_1000000_1000000_1000000_1000000_1000000_1000000_1000000_1000000_1000000_1000000_1000000_1000000,
  1_0000000_0000000_0000000_0600000_0683333_0766667_0850000_0864444_0878889_0893333_0907778_0922222_0936667_0951111_0965556_0980000_0981333_0982667_0984000_0985333_0986667_0988000_0989333_0990667_0992000_0993333_0994667_0996000_0997333_0998667_1000000_1000000_1000000_1000000_1000000_1000000_1000000_1000000_1000000_1000000_1000000_1000000_1000000_1000000_1000000_1000000_1000000_1000000_1000000_1000000_1000000_1000000_1000000_1000000_1000000_1000000_1000000_1000000_1000000_1000000_1000000_1000000_1000000_1000000_1000000_1000000_1000000_1000000_1000000_1000000_1000000_1000000_1000000_1000000_1000000_1000000_1000000_1000000_1000000_1000000_1000000_1000000_1000000_1000000_1000000_1000000_1000000_1000000_1000000_1000000_1000000_1000000_1000000_1000000_1000000_1000000_1000000_1000000_1000000_1000000_1000000_1000000_1000000_1000000_1000000_1000000_1000000_1000000_1000000_1000000_1000000_1000000_1000000_1000000_1000000_1000000_1000000_1000000_1000000_1000000_1000000_1000000_1000000_1000000_1000000_1000000_1000000_1000000_1000000_1000000_1000000_1000000_1000000_1000000_1000000_1000000_1000000_1000000_1000000_1000000_1000000_1000000_1000000_1000000_1000000_1000000_1000000_1000000_1000000_1000000_1000000_1000000_1000000_1000000_1000000_1000000_1000000_1000000_1000000_1000000_1000000_1000000_1000000_1000000_1000000_1000000_1000000_1000000_1000000_1000000_1000000_1000000_1000000_1000000_1000000_1000000_1000000_1000000_1000000_1000000_1000000,
  1_0000000_0000000_0000000_0600000_0683333_0766667_0850000_0864444_0878889_0893333_0907778_0922222_0936667_0951111_0965556_0980000_0981333_0982667_0984000_0985333_0986667_0988000_0989333_0990667_0992000_0993333_0994667_0996000_0997333_0998667_1000000_1000000_1000000_1000000_1000000_1000000_1000000_1000000_1000000_1000000_1000000_1000000_1000000_1000000_1000000_1000000_1000000_1000000_1000000_1000000_1000000_1000000_1000000_1000000_1000000_1000000_1000000_1000000_1000000_1000000_1000000_1000000_1000000_1000000_1000000_1000000_1000000_1000000_1000000_1000000_1000000_1000000_1000000_1000000_1000000_1000000_1000000_1000000_1000000_1000000_1000000_1000000_1000000_1000000_1000000_1000000_1000000_1000000_1000000_1000000_1000000_1000000_1000000_1000000_1000000_1000000_1000000_1000000_1000000_1000000_1000000_1000000_1000000_1000000_1000000_1000000_1000000_1000000_1000000_1000000_1000000_1000000_1000000_1000000_1000000_1000000_1000000_1000000_1000000_1000000_1000000_1000000_1000000_1000000_1000000_1000000_1000000_1000000_1000000_1000000_1000000_1000000_1000000_1000000_1000000_1000000_1000000_1000000_1000000_1000000_1000000_1000000_1000000_1000000_1000000_1000000_1000000_1000000_1000000_1000000_1000000_1000000_1000000_1000000_1000000_1000000_1000000_1000000_1000000_1000000_1000000_1000000_1000000_1000000_1000000_1000000_1000000_1000000_1000000_1000000_1000000_1000000_1000000_1000000_1000000_1000000_1000000_1000000_1000000_1000000_1000000_1000000,
  1_0000000_0000000_0000000_0600000_0683333_0766667_0850000_0864444_0878889_0893333_0907778_0922222_0936667_0951111_0965556_0980000_0981333_0982667_0984000_0985333_0986667_0988000_0989333_0990667_0992000_0993333_0994667_0996000_0997333_0998667_1000000_1000000_1000000_1000000_1000000_1000000_1000000_1000000_1000000_1000000_1000000_1000000_1000000_1000000_1000000_1000000_1000000_1000000_1000000_1000000_1000000_1000000_1000000_1000000_1000000_1000000_1000000_1000000_1000000_1000000_1000000_1000000_1000000_1000000_1000000_1000000_1000000_1000000_1000000_1000000_1000000_1000000_1000000_1000000_1000000_1000000_1000000_1000000_1000000_1000000_1000000_1000000_1000000_1000000_1000000_1000000_1000000_1000000_1000000_1000000_1000000_1000000_1000000_1000000_1000000_1000000_1000000_1000000_1000000_1000000_1000000_1000000_1000000_1000000_1000000_1000000_1000000_1000000_1000000_1000000_1000000_1000000_1000000_1000000_1000000_1000000_1000000_1000000_1000000_1000000_1000000_1000000_1000000_1000000_1000000_1000000_1000000_1000000_1000000_1000000_1000000_1000000_1000000_1000000_1000000_1000000_1000000_1000000_1000000_1000000_1000000_1000000_1000000_1000000_1000000_1000000_1000000_1000000_1000000_1000000_1000000_1000000_1000000_1000000_1000000_1000000_1000000_1000000_1000000_1000000_1000000_1000000_1000000_1000000_1000000_1000000_1000000_1000000_1000000_1000000_1000000_1000000_1000000_1000000_1000000_1000000_1000000_1000000_1000000_1000000_1000000_1000000_1000000,
  1_0000000_0000000_0000000_0600000_0683333_0766667_0850000_0864444_0878889_0893333_0907778_0922222_0936667_0951111_0965556_0980000_0981333_0982667_0984000_0985333_0986667_0988000_0989333_0990667_0992000_0993333_0994667_0996000_0997333_0998667_1000000_1000000_1000000_1000000_1000000_1000000_1000000_1000000_1000000_1000000_1000000_1000000_1000000_1000000_1000000_1000000_1000000_1000000_1000000_1000000_1000000_1000000_1000000_1000000_1000000_1000000_1000000_1000000_1000000_1000000_1000000_1000000_1000000_1000000_1000000_1000000_1000000_1000000_1000000_1000000_1000000_1000000_1000000_1000000_1000000_1000000_1000000_1000000_1000000_1000000_1000000_1000000_1000000_1000000_1000000_1000000_1000000_1000000_1000000_1000000_1000000_1000000_1000000_1000000_1000000_1000000_1000000_1000000_1000000_1000000_1000000_1000000_1000000_1000000_1000000_1000000_1000000_1000000_1000000_1000000_1000000_1000000_1000000_1000000_1000000_1000000_1000000_1000000_1000000_1000000_1000000_1000000_1000000_1000000_1000000_1000000_1000000_1000000_1000000_1000000_1000000_1000000_1000000_1000000_1000000_1000000_1000000_1000000_1000000_1000000_1000000_1000000_1000000_1000000_1000000_1000000_1000000_1000000_1000000_1000000_1000000_1000000_1000000_1000000_1000000_1000000_1000000_1000000_1000000_1000000_1000000_1000000_1000000_1000000_1000000_1000000_1000000_1000000_1000000_1000000_1000000_1000000_1000000_1000000_1000000_1000000_1000000_1000000_1000000_1000000_1000000_1000000_1000000_1000000,
  1_0000000_0000000_0000000_0600000_0683333_0766667_0850000_0864444_0878889_0893333_0907778_0922222_0936667_0951111_0965556_0980000_0981333_0982667_0984000_0985333_0986667_0988000_0989333_0990667_0992000_0993333_0994667_0996000_0997333_0998667_1000000_1000000_1000000_1000000_1000000_1000000_1000000_1000000_1000000_1000000_1000000_1000000_1000000_1000000_1000000_1000000_1000000_1000000_1000000_1000000_1000000_1000000_1000000_1000000_1000000_1000000_1000000_1000000_1000000_1000000_1000000_1000000_1000000_1000000_1000000_1000000_1000000_1000000_1000000_1000000_1000000_1000000_1000000_1000000_1000000_1000000_1000000_1000000_1000000_1000000_1000000_1000000_1000000_1000000_1000000_1000000_1000000_1000000_1000000_1000000_1000000_1000000_1000000_1000000_1000000_1000000_1000000_1000000_1000000_1000000_1000000_1000000_1000000_1000000_1000000_1000000_1000000_1000000_1000000_1000000_1000000_1000000_1000000_1000000_1000000_1000000_1000000_1000000_1000000_1000000_1000000_1000000_1000000_1000000_1000000_1000000_1000000_1000000_1000000_1000000_1000000_1000000_1000000_1000000_1000000_1000000_1000000_1000000_1000000_1000000_1000000_1000000_1000000_1000000_1000000_1000000_1000000_1000000_1000000_1000000_1000000_1000000_1000000_1000000_1000000_1000000_1000000_1000000_1000000_1000000_1000000_1000000_1000000_1000000_1000000_1000000_1000000_1000000_1000000_1000000_1000000_1000000_1000000_1000000_1000000_1000000_1000000_1000000_1000000_1000000_1000000_1000000_1000000_1000000_1000000,
  1_0000000_0000000_0000000_0600000_0683333_0766667_0850000_0864444_0878889_0893333_0907778_0922222_0936667_0951111_0965556_0980000_0981333_0982667_0984000_0985333_0986667_0988000_0989333_0990667_0992000_0993333_0994667_0996000_0997333_0998667_1000000_1000000_1000000_1000000_1000000_1000000_1000000_1000000_1000000_1000000_1000000_1000000_1000000_1000000_1000000_1000000_1000000_1000000_1000000_1000000_1000000_1000000_1000000_1000000_1000000_1000000_1000000_1000000_1000000_1000000_1000000_1000000_1000000_1000000_1000000_1000000_1000000_1000000_1000000_1000000_1000000_1000000_1000000_1000000_1000000_1000000_1000000_1000000_1000000_1000000_1000000_1000000_1000000_1000000_1000000_1000000_1000000_1000000_1000000_1000000_1000000_1000000_1000000_1000000_1000000_1000000_1000000_1000000_1000000_1000000_1000000_1000000_1000000_1000000_1000000_1000000_1000000_1000000_1000000_1000000_1000000_1000000_1000000_1000000_1000000_1000000_1000000_1000000_1000000_1000000_1000000_1000000_1000000_1000000_1000000_1000000_1000000_1000000_1000000_1000000_1000000_1000000_1000000_1000000_1000000_1000000_1000000_1000000_1000000_1000000_1000000_1000000_1000000_1000000_1000000_1000000_1000000_1000000_1000000_1000000_1000000_1000000_1000000_1000000_1000000_1000000_1000000_1000000_1000000_1000000_1000000_1000000_1000000_1000000_1000000_1000000_1000000_1000000_1000000_1000000_1000000_1000000_1000000_1000000_1000000_1000000_1000000_1000000_1000000_1000000_1000000_1000000_1000000_1000000_1000000_1000000,
  1_0000000_0000000_0000000_0600000_0683333_0766667_0850000_0864444_0878889_0893333_0907778_0922222_0936667_0951111_0965556_0980000_0981333_0982667_0984000_0985333_0986667_0988000_0989333_0990667_0992000_0993333_0994667_0996000_0997333_0998667_1000000_1000000_1000000_1000000_1000000_1000000_1000000_1000000_1000000_1000000_1000000_1000000_1000000_1000000_1000000_1000000_1000000_1000000_1000000_1000000_1000000_1000000_1000000_1000000_1000000_1000000_1000000_1000000_1000000_1000000_1000000_1000000_1000000_1000000_1000000_1000000_1000000_1000000_1000000_1000000_1000000_1000000_1000000_1000000_1000000_1000000_1000000_1000000_1000000_1000000_1000000_1000000_1000000_1000000_1000000_1000000_1000000_1000000_1000000_1000000_1000000_1000000_1000000_1000000_1000000_1000000_1000000_1000000_1000000_1000000_1000000_1000000_1000000_1000000_1000000_1000000_1000000_1000000_1000000_1000000_1000000_1000000_1000000_1000000_1000000_1000000_1000000_1000000_1000000_1000000_1000000_1000000_1000000_1000000_1000000_1000000_1000000_1000000_1000000_1000000_1000000_1000000_1000000_1000000_1000000_1000000_1000000_1000000_1000000_1000000_1000000_1000000_1000000_1000000_1000000_1000000_1000000_1000000_1000000_1000000_1000000_1000000_1000000_1000000_1000000_1000000_1000000_1000000_1000000_1000000_1000000_1000000_1000000_1000000_1000000_1000000_1000000_1000000_1000000_1000000_1000000_1000000_1000000_1000000_1000000_1000000_1000000_1000000_1000000_1000000_1000000_1000000_1000000_1000000_1000000_1000000_1000000,
  1_0000000_0000000_0000000_0600000_0683333_0766667_0850000_0864444_0878889_0893333_0907778_0922222_0936667_0951111_0965556_0980000_0981333_0982667_0984000_0985333_0986667_0988000_0989333_0990667_0992000_0993333_0994667_0996000_0997333_0998667_1000000_1000000_1000000_1000000_1000000_1000000_1000000_1000000_1000000_1000000_1000000_1000000_1000000_1000000_1000000_1000000_1000000_1000000_1000000_1000000_1000000_1000000_1000000_1000000_1000000_1000000_1000000_1000000_1000000_1000000_1000000_1000000_1000000_1000000_1000000_1000000_1000000_1000000_1000000_1000000_1000000_1000000_1000000_1000000_1000000_1000000_1000000_1000000_1000000_1000000_1000000_1000000_1000000_1000000_1000000_1000000_1000000_1000000_1000000_1000000_1000000_1000000_1000000_1000000_1000000_1000000_1000000_1000000_1000000_1000000_1000000_1000000_1000000_1000000_1000000_1000000_1000000_1000000_1000000_1000000_1000000_1000000_1000000_1000000_1000000_1000000_1000000_1000000_1000000_1000000_1000000_1000000_1000000_1000000_1000000_1000000_1000000_1000000_1000000_1000000_1000000_1000000_1000000_1000000_1000000_1000000_1000000_1000000_1000000_1000000_1000000_1000000_1000000_1000000_1000000_1000000_1000000_1000000_1000000_1000000_1000000_1000000_1000000_1000000_1000000_1000000_1000000_1000000_1000000_1000000_1000000_1000000_1000000_1000000_1000000_1000000_1000000_1000000_1000000_1000000_1000000_1000000_1000000_1000000_1000000_1000000_1000000_1000000_1000000_1000000_1000000_1000000_1000000_1000000_1000000_1000000_1000000_1000000,
  1_0000000_0000000_0000000_0600000_0683333_0766667_0850000_0864444_0878889_0893333_0907778_0922222_0936667_0951111_0965556_0980000_0981333_0982667_0984000_0985333_0986667_0988000_0989333_0990667_0992000_0993333_0994667_0996000_0997333_0998667_1000000_1000000_1000000_1000000_1000000_1000000_1000000_1000000_1000000_1000000_1000000_1000000_1000000_1000000_1000000_1000000_1000000_1000000_1000000_1000000_1000000_1000000_1000000_1000000_1000000_1000000_1000000_1000000_1000000_1000000_1000000_1000000_1000000_1000000_1000000_1000000_1000000_1000000_1000000_1000000_1000000_1000000_1000000_1000000_1000000_1000000_1000000_1000000_1000000_1000000_1000000_1000000_1000000_1000000_1000000_1000000_1000000_1000000_1000000_1000000_1000000_1000000_1000000_1000000_1000000_1000000_1000000_1000000_1000000_1000000_1000000_1000000_1000000_1000000_1000000_1000000_1000000_1000000_1000000_1000000_1000000_1000000_1000000_1000000_1000000_1000000_1000000_1000000_1000000_1000000_1000000_1000000_1000000_1000000_1000000_1000000_1000000_1000000_1000000_1000000_1000000_1000000_1000000_1000000_1000000_1000000_1000000_1000000_1000000_1000000_1000000_1000000_1000000_1000000_1000000_1000000_1000000_1000000_1000000_1000000_1000000_1000000_1000000_1000000_1000000_1000000_1000000_1000000_1000000_1000000_1000000_1000000_1000000_1000000_1000000_1000000_1000000_1000000_1000000_1000000_1000000_1000000_1000000_1000000_1000000_1000000_1000000_1000000_1000000_1000000_1000000_1000000_1000000_1000000_1000000_1000000_1000000_1000000_1000000,
  1_0000000_0000000_0000000_0600000_0683333_0766667_0850000_0864444_0878889_0893333_0907778_0922222_0936667_0951111_0965556_0980000_0981333_0982667_0984000_0985333_0986667_0988000_0989333_0990667_0992000_0993333_0994667_0996000_0997333_0998667_1000000_1000000_1000000_1000000_1000000_1000000_1000000_1000000_1000000_1000000_1000000_1000000_1000000_1000000_1000000_1000000_1000000_1000000_1000000_1000000_1000000_1000000_1000000_1000000_1000000_1000000_1000000_1000000_1000000_1000000_1000000_1000000_1000000_1000000_1000000_1000000_1000000_1000000_1000000_1000000_1000000_1000000_1000000_1000000_1000000_1000000_1000000_1000000_1000000_1000000_1000000_1000000_1000000_1000000_1000000_1000000_1000000_1000000_1000000_1000000_1000000_1000000_1000000_1000000_1000000_1000000_1000000_1000000_1000000_1000000_1000000_1000000_1000000_1000000_1000000_1000000_1000000_1000000_1000000_1000000_1000000_1000000_1000000_1000000_1000000_1000000_1000000_1000000_1000000_1000000_1000000_1000000_1000000_1000000_1000000_1000000_1000000_1000000_1000000_1000000_1000000_1000000_1000000_1000000_1000000_1000000_1000000_1000000_1000000_1000000_1000000_1000000_1000000_1000000_1000000_1000000_1000000_1000000_1000000_1000000_1000000_1000000_1000000_1000000_1000000_1000000_1000000_1000000_1000000_1000000_1000000_1000000_1000000_1000000_1000000_1000000_1000000_1000000_1000000_1000000_1000000_1000000_1000000_1000000_1000000_1000000_1000000_1000000_1000000_1000000_1000000_1000000_1000000_1000000_1000000_1000000_1000000_1000000_1000000_1000000,
  1_0000000_0000000_0000000_0600000_0683333_0766667_0850000_0864444_0878889_0893333_0907778_0922222_0936667_0951111_0965556_0980000_0981333_0982667_0984000_0985333_0986667_0988000_0989333_0990667_0992000_0993333_0994667_0996000_0997333_0998667_1000000_1000000_1000000_1000000_1000000_1000000_1000000_1000000_1000000_1000000_1000000_1000000_1000000_1000000_1000000_1000000_1000000_1000000_1000000_1000000_1000000_1000000_1000000_1000000_1000000_1000000_1000000_1000000_1000000_1000000_1000000_1000000_1000000_1000000_1000000_1000000_1000000_1000000_1000000_1000000_1000000_1000000_1000000_1000000_1000000_1000000_1000000_1000000_1000000_1000000_1000000_1000000_1000000_1000000_1000000_1000000_1000000_1000000_1000000_1000000_1000000_1000000_1000000_1000000_1000000_1000000_1000000_1000000_1000000_1000000_1000000_1000000_1000000_1000000_1000000_1000000_1000000_1000000_1000000_1000000_1000000_1000000_1000000_1000000_1000000_1000000_1000000_1000000_1000000_1000000_1000000_1000000_1000000_1000000_1000000_1000000_1000000_1000000_1000000_1000000_1000000_1000000_1000000_1000000_1000000_1000000_1000000_1000000_1000000_1000000_1000000_1000000_1000000_1000000_1000000_1000000_1000000_1000000_1000000_1000000_1000000_1000000_1000000_1000000_1000000_1000000_1000000_1000000_1000000_1000000_1000000_1000000_1000000_1000000_1000000_1000000_1000000_1000000_1000000_1000000_1000000_1000000_1000000_1000000_1000000_1000000_1000000_1000000_1000000_1000000_1000000_1000000_1000000_1000000_1000000_1000000_1000000_1000000_1000000_1000000_1000000,
  1_0000000_0000000_0000000_0600000_0683333_0766667_0850000_0864444_0878889_0893333_0907778_0922222_0936667_0951111_0965556_0980000_0981333_0982667_0984000_0985333_0986667_0988000_0989333_0990667_0992000_0993333_0994667_0996000_0997333_0998667_1000000_1000000_1000000_1000000_1000000_1000000_1000000_1000000_1000000_1000000_1000000_1000000_1000000_1000000_1000000_1000000_1000000_1000000_1000000_1000000_1000000_1000000_1000000_1000000_1000000_1000000_1000000_1000000_1000000_1000000_1000000_1000000_1000000_1000000_1000000_1000000_1000000_1000000_1000000_1000000_1000000_1000000_1000000_1000000_1000000_1000000_1000000_1000000_1000000_1000000_1000000_1000000_1000000_1000000_1000000_1000000_1000000_1000000_1000000_1000000_1000000_1000000_1000000_1000000_1000000_1000000_1000000_1000000_1000000_1000000_1000000_1000000_1000000_1000000_1000000_1000000_1000000_1000000_1000000_1000000_1000000_1000000_1000000_1000000_1000000_1000000_1000000_1000000_1000000_1000000_1000000_1000000_1000000_1000000_1000000_1000000_1000000_1000000_1000000_1000000_1000000_1000000_1000000_1000000_1000000_1000000_1000000_1000000_1000000_1000000_1000000_1000000_1000000_1000000_1000000_1000000_1000000_1000000_1000000_1000000_1000000_1000000_1000000_1000000_1000000_1000000_1000000_1000000_1000000_1000000_1000000_1000000_1000000_1000000_1000000_1000000_1000000_1000000_1000000_1000000_1000000_1000000_1000000_1000000_1000000_1000000_1000000_1000000_1000000_1000000_1000000_1000000_1000000_1000000_1000000_1000000_1000000_1000000_1000000_1000000_1000000_1000000,
  1_0000000_0000000_0000000_0600000_0683333_0766667_0850000_0864444_0878889_0893333_0907778_0922222_0936667_0951111_0965556_0980000_0981333_0982667_0984000_0985333_0986667_0988000_0989333_0990667_0992000_0993333_0994667_0996000_0997333_0998667_1000000_1000000_1000000_1000000_1000000_1000000_1000000_1000000_1000000_1000000_1000000_1000000_1000000_1000000_1000000_1000000_1000000_1000000_1000000_1000000_1000000_1000000_1000000_1000000_1000000_1000000_1000000_1000000_1000000_1000000_1000000_1000000_1000000_1000000_1000000_1000000_1000000_1000000_1000000_1000000_1000000_1000000_1000000_1000000_1000000_1000000_1000000_1000000_1000000_1000000_1000000_1000000_1000000_1000000_1000000_1000000_1000000_1000000_1000000_1000000_1000000_1000000_1000000_1000000_1000000_1000000_1000000_1000000_1000000_1000000_1000000_1000000_1000000_1000000_1000000_1000000_1000000_1000000_1000000_1000000_1000000_1000000_1000000_1000000_1000000_1000000_1000000_1000000_1000000_1000000_1000000_1000000_1000000_1000000_1000000_1000000_1000000_1000000_1000000_1000000_1000000_1000000_1000000_1000000_1000000_1000000_1000000_1000000_1000000_1000000_1000000_1000000_1000000_1000000_1000000_1000000_1000000_1000000_1000000_1000000_1000000_1000000_1000000_1000000_1000000_1000000_1000000_1000000_1000000_1000000_1000000_1000000_1000000_1000000_1000000_1000000_1000000_1000000_1000000_1000000_1000000_1000000_1000000_1000000_1000000_1000000_1000000_1000000_1000000_1000000_1000000_1000000_1000000_1000000_1000000_1000000_1000000_1000000_1000000_1000000_1000000_1000000_1000000,
  1_0000000_0000000_0000000_0600000_0683333_0766667_0850000_0864444_0878889_0893333_0907778_0922222_0936667_0951111_0965556_0980000_0981333_0982667_0984000_0985333_0986667_0988000_0989333_0990667_0992000_0993333_0994667_0996000_0997333_0998667_1000000_1000000_1000000_1000000_1000000_1000000_1000000_1000000_1000000_1000000_1000000_1000000_1000000_1000000_1000000_1000000_1000000_1000000_1000000_1000000_1000000_1000000_1000000_1000000_1000000_1000000_1000000_1000000_1000000_1000000_1000000_1000000_1000000_1000000_1000000_1000000_1000000_1000000_1000000_1000000_1000000_1000000_1000000_1000000_1000000_1000000_1000000_1000000_1000000_1000000_1000000_1000000_1000000_1000000_1000000_1000000_1000000_1000000_1000000_1000000_1000000_1000000_1000000_1000000_1000000_1000000_1000000_1000000_1000000_1000000_1000000_1000000_1000000_1000000_1000000_1000000_1000000_1000000_1000000_1000000_1000000_1000000_1000000_1000000_1000000_1000000_1000000_1000000_1000000_1000000_1000000_1000000_1000000_1000000_1000000_1000000_1000000_1000000_1000000_1000000_1000000_1000000_1000000_1000000_1000000_1000000_1000000_1000000_1000000_1000000_1000000_1000000_1000000_1000000_1000000_1000000_1000000_1000000_1000000_1000000_1000000_1000000_1000000_1000000_1000000_1000000_1000000_1000000_1000000_1000000_1000000_1000000_1000000_1000000_1000000_1000000_1000000_1000000_1000000_1000000_1000000_1000000_1000000_1000000_1000000_1000000_1000000_1000000_1000000_1000000_1000000_1000000_1000000_1000000_1000000_1000000_1000000_1000000_1000000_1000000_1000000_1000000_1000000_1000000,
  1_0000000_0000000_0000000_0600000_0683333_0766667_0850000_0864444_0878889_0893333_0907778_0922222_0936667_0951111_0965556_0980000_0981333_0982667_0984000_0985333_0986667_0988000_0989333_0990667_0992000_0993333_0994667_0996000_0997333_0998667_1000000_1000000_1000000_1000000_1000000_1000000_1000000_1000000_1000000_1000000_1000000_1000000_1000000_1000000_1000000_1000000_1000000_1000000_1000000_1000000_1000000_1000000_1000000_1000000_1000000_1000000_1000000_1000000_1000000_1000000_1000000_1000000_1000000_1000000_1000000_1000000_1000000_1000000_1000000_1000000_1000000_1000000_1000000_1000000_1000000_1000000_1000000_1000000_1000000_1000000_1000000_1000000_1000000_1000000_1000000_1000000_1000000_1000000_1000000_1000000_1000000_1000000_1000000_1000000_1000000_1000000_1000000_1000000_1000000_1000000_1000000_1000000_1000000_1000000_1000000_1000000_1000000_1000000_1000000_1000000_1000000_1000000_1000000_1000000_1000000_1000000_1000000_1000000_1000000_1000000_1000000_1000000_1000000_1000000_1000000_1000000_1000000_1000000_1000000_1000000_1000000_1000000_1000000_1000000_1000000_1000000_1000000_1000000_1000000_1000000_1000000_1000000_1000000_1000000_1000000_1000000_1000000_1000000_1000000_1000000_1000000_1000000_1000000_1000000_1000000_1000000_1000000_1000000_1000000_1000000_1000000_1000000_1000000_1000000_1000000_1000000_1000000_1000000_1000000_1000000_1000000_1000000_1000000_1000000_1000000_1000000_1000000_1000000_1000000_1000000_1000000_1000000_1000000_1000000_1000000_1000000_1000000_1000000_1000000_1000000_1000000_1000000_1000000_1000000_1000000,
  1_0000000_0000000_0000000_0600000_0683333_0766667_0850000_0864444_0878889_0893333_0907778_0922222_0936667_0951111_0965556_0980000_0981333_0982667_0984000_0985333_0986667_0988000_0989333_0990667_0992000_0993333_0994667_0996000_0997333_0998667_1000000_1000000_1000000_1000000_1000000_1000000_1000000_1000000_1000000_1000000_1000000_1000000_1000000_1000000_1000000_1000000_1000000_1000000_1000000_1000000_1000000_1000000_1000000_1000000_1000000_1000000_1000000_1000000_1000000_1000000_1000000_1000000_1000000_1000000_1000000_1000000_1000000_1000000_1000000_1000000_1000000_1000000_1000000_1000000_1000000_1000000_1000000_1000000_1000000_1000000_1000000_1000000_1000000_1000000_1000000_1000000_1000000_1000000_1000000_1000000_1000000_1000000_1000000_1000000_1000000_1000000_1000000_1000000_1000000_1000000_1000000_1000000_1000000_1000000_1000000_1000000_1000000_1000000_1000000_1000000_1000000_1000000_1000000_1000000_1000000_1000000_1000000_1000000_1000000_1000000_1000000_1000000_1000000_1000000_1000000_1000000_1000000_1000000_1000000_1000000_1000000_1000000_1000000_1000000_1000000_1000000_1000000_1000000_1000000_1000000_1000000_1000000_1000000_1000000_1000000_1000000_1000000_1000000_1000000_1000000_1000000_1000000_1000000_1000000_1000000_1000000_1000000_1000000_1000000_1000000_1000000_1000000_1000000_1000000_1000000_1000000_1000000_1000000_1000000_1000000_1000000_1000000_1000000_1000000_1000000_1000000_1000000_1000000_1000000_1000000_1000000_1000000_1000000_1000000_1000000_1000000_1000000_1000000_1000000_1000000_1000000_1000000_1000000_1000000_1000000_1000000,
  1_0000000_0000000_0000000_0600000_0683333_0766667_0850000_0864444_0878889_0893333_0907778_0922222_0936667_0951111_0965556_0980000_0981333_0982667_0984000_0985333_0986667_0988000_0989333_0990667_0992000_0993333_0994667_0996000_0997333_0998667_1000000_1000000_1000000_1000000_1000000_1000000_1000000_1000000_1000000_1000000_1000000_1000000_1000000_1000000_1000000_1000000_1000000_1000000_1000000_1000000_1000000_1000000_1000000_1000000_1000000_1000000_1000000_1000000_1000000_1000000_1000000_1000000_1000000_1000000_1000000_1000000_1000000_1000000_1000000_1000000_1000000_1000000_1000000_1000000_1000000_1000000_1000000_1000000_1000000_1000000_1000000_1000000_1000000_1000000_1000000_1000000_1000000_1000000_1000000_1000000_1000000_1000000_1000000_1000000_1000000_1000000_1000000_1000000_1000000_1000000_1000000_1000000_1000000_1000000_1000000_1000000_1000000_1000000_1000000_1000000_1000000_1000000_1000000_1000000_1000000_1000000_1000000_1000000_1000000_1000000_1000000_1000000_1000000_1000000_1000000_1000000_1000000_1000000_1000000_1000000_1000000_1000000_1000000_1000000_1000000_1000000_1000000_1000000_1000000_1000000_1000000_1000000_1000000_1000000_1000000_1000000_1000000_1000000_1000000_1000000_1000000_1000000_1000000_1000000_1000000_1000000_1000000_1000000_1000000_1000000_1000000_1000000_1000000_1000000_1000000_1000000_1000000_1000000_1000000_1000000_1000000_1000000_1000000_1000000_1000000_1000000_1000000_1000000_1000000_1000000_1000000_1000000_1000000_1000000_1000000_1000000_1000000_1000000_1000000_1000000_1000000_1000000_1000000_1000000_1000000_1000000_1000000,
  1_0000000_0000000_0000000_0600000_0683333_0766667_0850000_0864444_0878889_0893333_0907778_0922222_0936667_0951111_0965556_0980000_0981333_0982667_0984000_0985333_0986667_0988000_0989333_0990667_0992000_0993333_0994667_0996000_0997333_0998667_1000000_1000000_1000000_1000000_1000000_1000000_1000000_1000000_1000000_1000000_1000000_1000000_1000000_1000000_1000000_1000000_1000000_1000000_1000000_1000000_1000000_1000000_1000000_1000000_1000000_1000000_1000000_1000000_1000000_1000000_1000000_1000000_1000000_1000000_1000000_1000000_1000000_1000000_1000000_1000000_1000000_1000000_1000000_1000000_1000000_1000000_1000000_1000000_1000000_1000000_1000000_1000000_1000000_1000000_1000000_1000000_1000000_1000000_1000000_1000000_1000000_1000000_1000000_1000000_1000000_1000000_1000000_1000000_1000000_1000000_1000000_1000000_1000000_1000000_1000000_1000000_1000000_1000000_1000000_1000000_1000000_1000000_1000000_1000000_1000000_1000000_1000000_1000000_1000000_1000000_1000000_1000000_1000000_1000000_1000000_1000000_1000000_1000000_1000000_1000000_1000000_1000000_1000000_1000000_1000000_1000000_1000000_1000000_1000000_1000000_1000000_1000000_1000000_1000000_1000000_1000000_1000000_1000000_1000000_1000000_1000000_1000000_1000000_1000000_1000000_1000000_1000000_1000000_1000000_1000000_1000000_1000000_1000000_1000000_1000000_1000000_1000000_1000000_1000000_1000000_1000000_1000000_1000000_1000000_1000000_1000000_1000000_1000000_1000000_1000000_1000000_1000000_1000000_1000000_1000000_1000000_1000000_1000000_1000000_1000000_1000000_1000000_1000000_1000000_1000000_1000000_1000000_1000000,
  1_0000000_0000000_0000000_0600000_0683333_0766667_0850000_0864444_0878889_0893333_0907778_0922222_0936667_0951111_0965556_0980000_0981333_0982667_0984000_0985333_0986667_0988000_0989333_0990667_0992000_0993333_0994667_0996000_0997333_0998667_1000000_1000000_1000000_1000000_1000000_1000000_1000000_1000000_1000000_1000000_1000000_1000000_1000000_1000000_1000000_1000000_1000000_1000000_1000000_1000000_1000000_1000000_1000000_1000000_1000000_1000000_1000000_1000000_1000000_1000000_1000000_1000000_1000000_1000000_1000000_1000000_1000000_1000000_1000000_1000000_1000000_1000000_1000000_1000000_1000000_1000000_1000000_1000000_1000000_1000000_1000000_1000000_1000000_1000000_1000000_1000000_1000000_1000000_1000000_1000000_1000000_1000000_1000000_1000000_1000000_1000000_1000000_1000000_1000000_1000000_1000000_1000000_1000000_1000000_1000000_1000000_1000000_1000000_1000000_1000000_1000000_1000000_1000000_1000000_1000000_1000000_1000000_1000000_1000000_1000000_1000000_1000000_1000000_1000000_1000000_1000000_1000000_1000000_1000000_1000000_1000000_1000000_1000000_1000000_1000000_1000000_1000000_1000000_1000000_1000000_1000000_1000000_1000000_1000000_1000000_1000000_1000000_1000000_1000000_1000000_1000000_1000000_1000000_1000000_1000000_1000000_1000000_1000000_1000000_1000000_1000000_1000000_1000000_1000000_1000000_1000000_1000000_1000000_1000000_1000000_1000000_1000000_1000000_1000000_1000000_1000000_1000000_1000000_1000000_1000000_1000000_1000000_1000000_1000000_1000000_1000000_1000000_1000000_1000000_1000000_1000000_1000000_1000000_1000000_1000000_1000000_1000000_1000000_1000000,
  1_0000000_0000000_0000000_0600000_0683333_0766667_0850000_0864444_0878889_0893333_0907778_0922222_0936667_0951111_0965556_0980000_0981333_0982667_0984000_0985333_0986667_0988000_0989333_0990667_0992000_0993333_0994667_0996000_0997333_0998667_1000000_1000000_1000000_1000000_1000000_1000000_1000000_1000000_1000000_1000000_1000000_1000000_1000000_1000000_1000000_1000000_1000000_1000000_1000000_1000000_1000000_1000000_1000000_1000000_1000000_1000000_1000000_1000000_1000000_1000000_1000000_1000000_1000000_1000000_1000000_1000000_1000000_1000000_1000000_1000000_1000000_1000000_1000000_1000000_1000000_1000000_1000000_1000000_1000000_1000000_1000000_1000000_1000000_1000000_1000000_1000000_1000000_1000000_1000000_1000000_1000000_1000000_1000000_1000000_1000000_1000000_1000000_1000000_1000000_1000000_1000000_1000000_1000000_1000000_1000000_1000000_1000000_1000000_1000000_1000000_1000000_1000000_1000000_1000000_1000000_1000000_1000000_1000000_1000000_1000000_1000000_1000000_1000000_1000000_1000000_1000000_1000000_1000000_1000000_1000000_1000000_1000000_1000000_1000000_1000000_1000000_1000000_1000000_1000000_1000000_1000000_1000000_1000000_1000000_1000000_1000000_1000000_1000000_1000000_1000000_1000000_1000000_1000000_1000000_1000000_1000000_1000000_1000000_1000000_1000000_1000000_1000000_1000000_1000000_1000000_1000000_1000000_1000000_1000000_1000000_1000000_1000000_1000000_1000000_1000000_1000000_1000000_1000000_1000000_1000000_1000000_1000000_1000000_1000000_1000000_1000000_1000000_1000000_1000000_1000000_1000000_1000000_1000000_1000000_1000000_1000000_1000000_1000000_1000000_1000000,
  1_0000000_0000000_0000000_0600000_0683333_0766667_0850000_0864444_0878889_0893333_0907778_0922222_0936667_0951111_0965556_0980000_0981333_0982667_0984000_0985333_0986667_0988000_0989333_0990667_0992000_0993333_0994667_0996000_0997333_0998667_1000000_1000000_1000000_1000000_1000000_1000000_1000000_1000000_1000000_1000000_1000000_1000000_1000000_1000000_1000000_1000000_1000000_1000000_1000000_1000000_1000000_1000000_1000000_1000000_1000000_1000000_1000000_1000000_1000000_1000000_1000000_1000000_1000000_1000000_1000000_1000000_1000000_1000000_1000000_1000000_1000000_1000000_1000000_1000000_1000000_1000000_1000000_1000000_1000000_1000000_1000000_1000000_1000000_1000000_1000000_1000000_1000000_1000000_1000000_1000000_1000000_1000000_1000000_1000000_1000000_1000000_1000000_1000000_1000000_1000000_1000000_1000000_1000000_1000000_1000000_1000000_1000000_1000000_1000000_1000000_1000000_1000000_1000000_1000000_1000000_1000000_1000000_1000000_1000000_1000000_1000000_1000000_1000000_1000000_1000000_1000000_1000000_1000000_1000000_1000000_1000000_1000000_1000000_1000000_1000000_1000000_1000000_1000000_1000000_1000000_1000000_1000000_1000000_1000000_1000000_1000000_1000000_1000000_1000000_1000000_1000000_1000000_1000000_1000000_1000000_1000000_1000000_1000000_1000000_1000000_1000000_1000000_1000000_1000000_1000000_1000000_1000000_1000000_1000000_1000000_1000000_1000000_1000000_1000000_1000000_1000000_1000000_1000000_1000000_1000000_1000000_1000000_1000000_1000000_1000000_1000000_1000000_1000000_1000000_1000000_1000000_1000000_1000000_1000000_1000000_1000000_1000000_1000000_1000000_1000000_1000000]

end LCP.Kernel
