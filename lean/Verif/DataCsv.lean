import Verif.LrMain
import Verif.MbMain
import Verif.Utils

/-!
# lr/data.csv and the programs from reading it on

The 10000 records of lr/data.csv (lines 2-10001), one number per record: for each of the seven features the
sign (1 for `-`), two digits with the number of decimals, and twenty with the digits of the value without the
point; then one digit with the label.
-/

namespace MK.Lr

/-- lr/data.csv 2-101 -/
def dataCsv0 : List ℕ := [
  116_00009523894433829583_116_00009473598877173782_017_00006818514034143008_017_00028219975602413067_116_00016959837443286896_116_00003338886116348349_115_00001224744871391589_0,
  116_00009023934097553371_116_00008799590021118496_116_00007294715051501508_016_00006333080199205777_115_00001648851700781283_116_00003338886116348349_015_00000816496580927726_0,
  116_00009523894433829583_116_00010147607733229451_117_00022744984015544953_016_00009442896250860024_116_00016174303384163455_116_00003338886116348349_015_00000816496580927726_0,
  116_00009023934097553371_116_00009473598877173782_116_00005900210426516227_117_00004884517850680491_116_00015860089760514078_116_00003338886116348349_015_00000816496580927726_0,
  116_00009023934097553371_116_00008799590021118496_116_00007294715051501508_019_00013131449069732513_116_00015545876136864702_116_00003338886116348349_015_00000816496580927726_0,
  116_00009523894433829583_116_00009473598877173782_116_00006346451906511517_016_00001919147738793301_116_00015231662513215327_116_00003338886116348349_115_00001224744871391589_0,
  116_00009523894433829583_116_00009473598877173782_017_00010723126984101795_017_00024207309729310825_116_00014760342077741262_116_00003338886116348349_015_00000816496580927726_0,
  116_00009523894433829583_116_00009473598877173782_117_00006568730365715691_018_00021376474272484798_116_00014446128454091887_116_00003338886116348349_015_00000816496580927726_0,
  116_00008523973761276875_116_00008799590021118496_016_00007152352863346005_116_00011422966289271685_116_00014131914830442511_116_00003338886116348349_115_00001224744871391589_0,
  116_00007524053088724167_115_00000677756345295187_016_00011280086553302437_116_00012024866170237025_116_00013660594394968446_116_00003338886116348349_115_00001224744871391589_0,
  116_00008024013425000663_116_00007451572309007539_016_00013567074138278299_116_00016137848690166836_116_00013189273959494383_016_00029950108064592316_115_00001224744871391589_0,
  116_00007024092752447672_114_00000061035545968962_116_00006458012276510339_016_00004326747262654651_116_00012403739900370943_016_00029950108064592316_115_00001224744871391589_0,
  116_00007024092752447672_114_00000061035545968962_116_00011143547816460884_016_00011148279246928485_116_00011618205841247502_116_00003338886116348349_115_00001224744871391589_0,
  116_00007024092752447672_116_00005429545740840913_015_00001133586673830185_116_00010018533233685898_115_00001114688540577344_116_00003338886116348349_115_00001224744871391589_0,
  116_00007024092752447672_116_00005429545740840913_016_00027679460943129346_116_00020451464503751753_116_00010675564970299374_116_00003338886116348349_015_00000816496580927726_0,
  116_00007024092752447672_116_00005429545740840913_018_00017982973841959956_016_00008439729782584461_116_00010361351346649998_116_00003338886116348349_015_00000816496580927726_0,
  116_00007024092752447672_116_00005429545740840913_116_00012705392996444398_015_00000663403013968845_116_00010047137723000623_116_00003338886116348349_115_00001224744871391589_0,
  115_00000652413241617146_116_00005429545740840913_116_00007183154681502685_016_00005630863671412888_116_00009575817287526558_116_00003338886116348349_115_00001224744871391589_0,
  116_00006024172079894964_116_00005429545740840913_116_00012984293921441454_016_00014559045239065398_116_00009104496852052494_016_00029950108064592316_115_00001224744871391589_0,
  116_00005524211743618752_117_00047555368847852436_016_00005200046388366611_116_00007510617062996991_116_00008318962792929054_116_00003338886116348349_115_00001224744871391589_0,
  116_00005524211743618752_117_00047555368847852436_116_00009135461156482079_016_00002721680913413756_115_00000784764235745499_016_00029950108064592316_115_00001224744871391589_0,
  116_00006024172079894964_117_00047555368847852436_117_00049519472815262355_016_00004828330496792433_115_00000706210829833155_116_00003338886116348349_015_00000816496580927726_0,
  116_00005524211743618752_117_00047555368847852436_017_00023552569533966383_116_00009316316705893005_116_00006747894674682174_116_00003338886116348349_115_00001224744871391589_0,
  116_00005024251407342256_116_00004081528028729957_015_00001222834969829243_116_00014332149047270821_115_00000627657423920811_116_00003338886116348349_015_00000816496580927726_0,
  116_00005024251407342256_116_00004081528028729957_017_00012396532534084133_117_00026954180152742907_116_00005962360615558734_116_00003338886116348349_115_00001224744871391589_0,
  116_00005024251407342256_116_00003407519172674287_016_00017973708753231787_116_00016739748571132171_115_00000549104018008467_116_00003338886116348349_015_00000816496580927726_0,
  115_00000452429107106576_116_00003407519172674287_116_00001493575811562738_117_00009900350192058306_116_00005176826556435293_116_00003338886116348349_015_00000816496580927726_0,
  115_00000452429107106576_116_00004081528028729957_016_00015184699503261225_116_00015435632162373938_117_00048626129327859174_016_00029950108064592316_115_00001224744871391589_0,
  115_00000452429107106576_116_00004081528028729957_115_00000556552931651976_017_00042264306158271003_117_00040770788736624775_116_00003338886116348349_015_00000816496580927726_0,
  116_00005024251407342256_116_00004081528028729957_016_00008602637673330699_115_00000991821658685834_117_00037628652500131016_116_00003338886116348349_015_00000816496580927726_0,
  115_00000452429107106576_116_00003407519172674287_116_00011143547816460884_016_00008239096488929353_117_00034486516263637257_116_00003338886116348349_115_00001224744871391589_0,
  116_00005024251407342256_116_00004081528028729957_015_00001445955709826888_116_00014532782340925934_117_00029773311908896616_116_00003338886116348349_015_00000816496580927726_0,
  116_00005024251407342256_116_00004081528028729957_116_00006681133016507984_016_00008339413135756903_117_00026631175672402857_116_00003338886116348349_015_00000816496580927726_0,
  116_00005524211743618752_117_00047555368847852436_016_00007040792493347183_116_00007510617062996991_117_00023489039435909095_116_00003338886116348349_015_00000816496580927726_0,
  116_00006024172079894964_114_00000061035545968962_017_00011280928834095907_115_00000530365083279075_117_00020346903199415334_116_00003338886116348349_115_00001224744871391589_0,
  116_00006024172079894964_116_00005429545740840913_116_00004840386911527413_016_00008640363076239577_117_00015633698844674693_116_00003338886116348349_115_00001224744871391589_0,
  116_00005524211743618752_116_00005429545740840913_017_00023552569533966383_117_00032973178962396227_117_00010920494489934053_116_00003338886116348349_115_00001224744871391589_0,
  116_00006024172079894964_114_00000061035545968962_115_00000556552931651976_117_00007894017255507152_118_00062072901351934134_116_00003338886116348349_015_00000816496580927726_0,
  116_00005524211743618752_116_00005429545740840913_116_00008912340416484434_015_00001074701265961826_117_00003065153898699653_016_00029950108064592316_115_00001224744871391589_0,
  116_00006024172079894964_114_00000061035545968962_115_00001052996578146736_015_00001255271230251427_017_00004790186692534748_116_00003338886116348349_015_00000816496580927726_0,
  116_00006024172079894964_114_00000061035545968962_116_00009860603561474425_016_00005430230377757772_017_00007932322929028508_116_00003338886116348349_015_00000816496580927726_0,
  116_00006024172079894964_114_00000061035545968962_116_00009525922451477957_016_00010847329306445812_017_00011074459165522269_116_00003338886116348349_015_00000816496580927726_0,
  116_00006024172079894964_114_00000061035545968962_116_00009525922451477957_016_00009141946310377358_016_00001421659540201603_116_00003338886116348349_115_00001224744871391589_0,
  116_00006024172079894964_116_00005429545740840913_116_00009302801711480313_016_00008540046429412019_017_00018929799756756668_016_00029950108064592316_115_00001224744871391589_0,
  116_00006024172079894964_114_00000061035545968962_117_00037247832115391877_016_00007536879961136456_016_00002678514034799107_116_00003338886116348349_115_00001224744871391589_0,
  116_00006024172079894964_114_00000061035545968962_116_00002776520066549197_016_00009141946310377358_016_00003149834470273171_116_00003338886116348349_015_00000816496580927726_0,
  115_00000652413241617146_115_00000677756345295187_016_00016969665423242386_116_00014231832400443263_016_00003464048093922547_116_00003338886116348349_115_00001224744871391589_0,
  116_00006024172079894964_114_00000061035545968962_116_00006736913201507395_016_00006333080199205777_016_00003935368529396611_116_00003338886116348349_015_00000816496580927726_0,
  116_00006024172079894964_116_00005429545740840913_116_00006346451906511517_016_00013957145358100058_016_00004249582153045987_016_00029950108064592316_115_00001224744871391589_0,
  116_00005524211743618752_116_00005429545740840913_116_00007071594311503863_016_00004126113968999543_016_00005035116212169427_116_00003338886116348349_115_00001224744871391589_0,
  116_00005524211743618752_114_00000061035545968962_015_00007375389375264303_114_00000354989615278852_016_00005506436647643491_116_00003338886116348349_015_00000816496580927726_1,
  116_00005524211743618752_114_00000061035545968962_116_00008689219676486789_015_00001496031182637562_016_00005820650271292868_116_00003338886116348349_015_00000816496580927726_0,
  116_00006024172079894964_115_00000677756345295187_117_00023302785865539066_015_00000382516402851687_016_00006134863894942243_016_00029950108064592316_115_00001224744871391589_0,
  115_00000652413241617146_115_00000677756345295187_017_00014627739934060582_117_00049023842454805255_016_00006920397954065683_116_00003338886116348349_015_00000816496580927726_0,
  115_00000652413241617146_115_00000677756345295187_016_00008491077303331875_115_00000991821658685834_015_00000723461157771506_116_00003338886116348349_015_00000816496580927726_0,
  116_00006024172079894964_114_00000061035545968962_116_00001493575811562738_017_00007153479768626296_016_00007548825201364435_116_00003338886116348349_015_00000816496580927726_0,
  116_00006024172079894964_114_00000061035545968962_116_00003445882286542132_017_00024207309729310825_016_00007863038825013812_116_00003338886116348349_015_00000816496580927726_0,
  116_00006024172079894964_114_00000061035545968962_117_00014377956265633265_017_00003140813895523986_016_00008177252448663187_116_00003338886116348349_015_00000816496580927726_0,
  116_00006024172079894964_115_00000677756345295187_016_00006817671753349538_116_00010520116467823681_016_00008491466072312563_116_00003338886116348349_115_00001224744871391589_0,
  116_00006024172079894964_114_00000061035545968962_116_00008968120601483845_015_00001445872859223784_016_00008962786507786628_116_00003338886116348349_015_00000816496580927726_0,
  116_00006024172079894964_114_00000061035545968962_116_00008131417826492676_015_00001265302894934183_016_00009277000131436004_116_00003338886116348349_015_00000816496580927726_0,
  116_00006024172079894964_115_00000677756345295187_016_00002968838988390162_117_00017925681938262783_016_00009591213755085379_116_00003338886116348349_115_00001224744871391589_0,
  116_00006024172079894964_115_00000677756345295187_015_00001618874283325063_116_00017141015158442399_016_00010062534190559445_116_00003338886116348349_015_00000816496580927726_0,
  116_00005524211743618752_115_00000677756345295187_016_00015240479688260637_116_00014131515753615709_015_00001037674781420882_116_00003338886116348349_115_00001224744871391589_0,
  116_00005024251407342256_114_00000061035545968962_117_00008799937765692141_117_00013913016065160544_016_00010848068249682883_116_00003338886116348349_015_00000816496580927726_0,
  116_00005024251407342256_114_00000061035545968962_116_00008075637641493265_016_00005129280437275106_015_00001116228187333226_116_00003338886116348349_015_00000816496580927726_0,
  116_00005524211743618752_116_00007451572309007539_015_00000782171508333894_116_00011322649642444131_016_00011476495496981636_116_00003338886116348349_115_00001224744871391589_0,
  116_00006024172079894964_116_00007451572309007539_116_00004059464321535655_016_00004126113968999543_014_00000119478159324557_016_00029950108064592316_115_00001224744871391589_0,
  116_00006024172079894964_116_00007451572309007539_117_00006568730365715691_116_00007610933709824549_015_00001273334999157914_116_00003338886116348349_015_00000816496580927726_0,
  116_00005524211743618752_115_00000677756345295187_116_00007183154681502685_016_00025794509683751707_016_00013047563615228517_116_00003338886116348349_015_00000816496580927726_1,
  116_00005524211743618752_115_00000677756345295187_014_00000214878604081947_116_00017441965098925065_016_00013361777238877892_116_00003338886116348349_115_00001224744871391589_0,
  116_00005524211743618752_114_00000061035545968962_116_00004840386911527413_016_00005530547024585329_016_00013833097674351955_116_00003338886116348349_015_00000816496580927726_0,
  116_00005524211743618752_114_00000061035545968962_116_00009470142266478546_016_00004427063909482209_016_00014147311298001333_116_00003338886116348349_015_00000816496580927726_0,
  116_00005024251407342256_114_00000061035545968962_016_00002968838988390162_116_00005002700892308083_016_00014461524921650708_116_00003338886116348349_015_00000816496580927726_0,
  116_00005524211743618752_115_00000677756345295187_017_00034708606533848635_116_00007711250356652106_016_00014775738545300083_116_00003338886116348349_015_00000816496580927726_0,
  116_00006024172079894964_116_00007451572309007539_116_00008912340416484434_016_00006734346786516008_015_00001508995216894946_116_00003338886116348349_015_00000816496580927726_0,
  116_00006024172079894964_116_00007451572309007539_117_00043383652465327116_015_00000793814654844668_016_00015404165792598836_116_00003338886116348349_015_00000816496580927726_0,
  116_00006024172079894964_116_00007451572309007539_116_00004673046356529179_017_00013172478578279617_016_00015718379416248212_116_00003338886116348349_015_00000816496580927726_1,
  116_00006024172079894964_116_00007451572309007539_115_00000785251690149562_016_00011549545834238708_116_00016959837443286896_116_00003338886116348349_015_00000816496580927726_0,
  116_00006024172079894964_116_00007451572309007539_116_00007629396161497976_117_00020935181343089515_116_00016645623819637518_116_00003338886116348349_015_00000816496580927726_0,
  116_00006024172079894964_116_00008125581165062826_116_00005230848206523292_016_00009944479484997806_116_00016331410195988143_016_00029950108064592316_115_00001224744871391589_0,
  116_00005524211743618752_116_00007451572309007539_117_00049519472815262355_016_00007536879961136456_116_00015545876136864702_116_00003338886116348349_015_00000816496580927726_0,
  116_00005524211743618752_116_00007451572309007539_116_00004784606726528002_017_00008156646236901802_116_00015231662513215327_116_00003338886116348349_015_00000816496580927726_0,
  116_00005024251407342256_115_00000677756345295187_117_00038921237665374214_018_00011344809589729025_115_00001491744888956595_116_00003338886116348349_015_00000816496580927726_0,
  116_00005524211743618752_116_00007451572309007539_115_00000651379246150975_016_00007637196607964014_116_00014603235265916574_116_00003338886116348349_015_00000816496580927726_0,
  116_00005024251407342256_115_00000677756345295187_016_00014794238208265347_114_00000132286659321677_114_00000142890216422672_116_00003338886116348349_115_00001224744871391589_0,
  116_00005024251407342256_115_00000677756345295187_116_00005732869871517993_016_00003925480675344427_116_00013817701206793134_016_00029950108064592316_115_00001224744871391589_0,
  116_00005024251407342256_115_00000677756345295187_018_00029139010841842207_116_00008212833590789884_116_00013032167147669695_116_00003338886116348349_015_00000816496580927726_0,
  116_00005024251407342256_115_00000677756345295187_116_00006681133016507984_016_00005229597084102664_116_00012717953524020318_116_00003338886116348349_115_00001224744871391589_0,
  116_00005524211743618752_116_00007451572309007539_116_00002888080436548019_117_00004884517850680491_116_00012246633088546255_116_00003338886116348349_115_00001224744871391589_0,
  116_00005524211743618752_116_00007451572309007539_016_00011949448773295372_116_00014231832400443263_115_00001177531265307219_116_00003338886116348349_015_00000816496580927726_0,
  116_00005524211743618752_116_00007451572309007539_016_00016244523018250039_116_00015134682221891271_116_00011461099029422814_116_00003338886116348349_015_00000816496580927726_0,
  116_00005524211743618752_116_00007451572309007539_015_00001049916396331068_116_00012927715991685031_115_00001114688540577344_116_00003338886116348349_115_00001224744871391589_0,
  115_00000452429107106576_115_00000677756345295187_117_00049519472815262355_016_00003022630853896422_116_00010675564970299374_116_00003338886116348349_015_00000816496580927726_0,
  116_00005024251407342256_116_00007451572309007539_014_00000046422445383725_115_00000811251694396233_116_00010361351346649998_116_00003338886116348349_015_00000816496580927726_0,
  116_00005024251407342256_115_00000677756345295187_116_00010474185596467949_016_00012251762362031606_116_00010047137723000623_116_00003338886116348349_115_00001224744871391589_0,
  116_00005024251407342256_115_00000677756345295187_017_00020205758434001708_116_00004701750951825417_116_00009575817287526558_116_00003338886116348349_115_00001224744871391589_0,
  116_00005524211743618752_116_00007451572309007539_015_00001178210821829714_116_00010118849880513456_116_00009104496852052494_116_00003338886116348349_115_00001224744871391589_0,
  116_00005524211743618752_116_00008125581165062826_117_00005453126665727467_116_00007309983769341876_115_00000863317641657843_116_00003338886116348349_015_00000816496580927726_0,
  116_00006024172079894964_116_00008125581165062826_117_00008799937765692141_016_00004427063909482209_116_00008318962792929054_116_00003338886116348349_015_00000816496580927726_0]

/-- lr/data.csv 102-201 -/
def dataCsv1 : List ℕ := [
  116_00006024172079894964_116_00007451572309007539_016_00017471687088237087_116_00015034365575063715_116_00008004749169279678_116_00003338886116348349_015_00000816496580927726_0,
  116_00006024172079894964_116_00008125581165062826_015_00002522513280315525_116_00019347981388648636_116_00007690535545630302_116_00003338886116348349_015_00000816496580927726_0,
  116_00006024172079894964_116_00008125581165062826_017_00009049721434119458_017_00006150313300350718_116_00007376321921980926_116_00003338886116348349_015_00000816496580927726_0,
  116_00006024172079894964_116_00008125581165062826_116_00005453968946520936_017_00005147146832075141_115_00000706210829833155_116_00003338886116348349_115_00001224744871391589_0,
  116_00006024172079894964_116_00008799590021118496_117_00049519472815262355_016_00003423897441206646_116_00006590787862857486_116_00003338886116348349_015_00000816496580927726_0,
  116_00006024172079894964_116_00008799590021118496_017_00029130588033907506_116_00008915050118582778_115_00000627657423920811_116_00003338886116348349_015_00000816496580927726_0,
  116_00006024172079894964_116_00008799590021118496_116_00005230848206523292_016_00008540046429412019_116_00005962360615558734_116_00003338886116348349_015_00000816496580927726_0,
  116_00006024172079894964_116_00008125581165062826_117_00023302785865539066_016_00006834663433343559_116_00005648146991909357_116_00003338886116348349_115_00001224744871391589_0,
  116_00005524211743618752_116_00008125581165062826_016_00004586464353373088_116_00007309983769341876_116_00005176826556435293_016_00029950108064592316_115_00001224744871391589_0,
  116_00005524211743618752_116_00008799590021118496_016_00001853235288401937_116_00005905550713756088_116_00004391292497311854_116_00003338886116348349_015_00000816496580927726_0,
  116_00006024172079894964_116_00009473598877173782_016_00018587290788225312_116_00017542281745752621_117_00040770788736624775_116_00003338886116348349_015_00000816496580927726_0,
  115_00000652413241617146_116_00009473598877173782_117_00022187182165550842_016_00003524214088034203_117_00037628652500131016_016_00029950108064592316_115_00001224744871391589_0,
  116_00006024172079894964_116_00008799590021118496_117_00022744984015544953_117_00004884517850680491_117_00029773311908896616_116_00003338886116348349_115_00001224744871391589_0,
  116_00006024172079894964_116_00009473598877173782_117_00029438606215474306_016_00001919147738793301_117_00025060107554155975_116_00003338886116348349_115_00001224744871391589_0,
  116_00006024172079894964_116_00009473598877173782_016_00007877495268338351_116_00010620433114651238_117_00020346903199415334_116_00003338886116348349_015_00000816496580927726_0,
  116_00006024172079894964_116_00009473598877173782_116_00006011770796515049_016_00005731180318240445_117_00017204766962921575_116_00003338886116348349_015_00000816496580927726_0,
  116_00005524211743618752_116_00008799590021118496_017_00014069938084066472_116_00005905550713756088_117_00014062630726427813_116_00003338886116348349_015_00000816496580927726_0,
  116_00006024172079894964_116_00009473598877173782_016_00003359300283386041_116_00007009033828859209_117_00010920494489934053_116_00003338886116348349_015_00000816496580927726_0,
  116_00006024172079894964_116_00009473598877173782_016_00009383560263322456_116_00011924549523409467_117_00007778358253440293_116_00003338886116348349_115_00001224744871391589_0,
  115_00000652413241617146_116_00010147607733229451_116_00004003684136536244_017_00007153479768626296_117_00003065153898699653_116_00003338886116348349_015_00000816496580927726_0,
  116_00005524211743618752_116_00008799590021118496_116_00005900210426516227_016_00004728013849964882_019_00007698233779410749_116_00003338886116348349_015_00000816496580927726_0,
  116_00005524211743618752_116_00008799590021118496_017_00010723126984101795_017_00012169312110004112_017_00003219118574287868_116_00003338886116348349_015_00000816496580927726_0,
  116_00005024251407342256_116_00008125581165062826_115_00001276117318144381_015_00001074701265961826_017_00006361254810781627_116_00003338886116348349_015_00000816496580927726_0,
  116_00005524211743618752_116_00008799590021118496_018_00040295047841724455_016_00003423897441206646_017_00009503391047275388_116_00003338886116348349_015_00000816496580927726_0,
  116_00005524211743618752_116_00008799590021118496_015_00001049916396331068_116_00010620433114651238_017_00012645527283769148_116_00003338886116348349_015_00000816496580927726_0,
  116_00005524211743618752_116_00009473598877173782_017_00011838730684090021_116_00007811567003479657_016_00001578766352026291_116_00003338886116348349_015_00000816496580927726_0,
  116_00005024251407342256_116_00009473598877173782_116_00011701349666454997_016_00020578044048718778_017_00018929799756756668_116_00003338886116348349_015_00000816496580927726_0,
  116_00005524211743618752_116_00009473598877173782_116_00007015814126504452_016_00006533713492860893_016_00002207193599325043_116_00003338886116348349_015_00000816496580927726_0,
  116_00005024251407342256_116_00009473598877173782_016_00002689938063393106_117_00013913016065160544_016_00002521407222974419_116_00003338886116348349_015_00000816496580927726_0,
  116_00005524211743618752_116_00010147607733229451_017_00011280928834095907_115_00000570491742010098_016_00002835620846623795_116_00003338886116348349_015_00000816496580927726_0,
  116_00006024172079894964_116_00010821616589285121_117_00036690030265397766_017_00011166145641728534_016_00003149834470273171_116_00003338886116348349_015_00000816496580927726_0,
  116_00006024172079894964_116_00010821616589285121_016_00011056965813304793_116_00012325816110719694_016_00003464048093922547_116_00003338886116348349_015_00000816496580927726_0,
  115_00000652413241617146_116_00010821616589285121_116_00005453968946520936_016_00003223264147551537_016_00003778261717571923_116_00003338886116348349_115_00001224744871391589_0,
  115_00000652413241617146_116_00010821616589285121_115_00000606755098151446_015_00000964352954451514_016_00004249582153045987_116_00003338886116348349_115_00001224744871391589_0,
  116_00006024172079894964_116_00010821616589285121_116_00009470142266478546_016_00013054295536652054_016_00004720902588520051_116_00003338886116348349_015_00000816496580927726_0,
  116_00006024172079894964_116_00010147607733229451_016_00009606681003320101_116_00011523282936099244_016_00005035116212169427_116_00003338886116348349_115_00001224744871391589_0,
  115_00000652413241617146_116_00010147607733229451_116_00006625352831508573_016_00005731180318240445_016_00005506436647643491_016_00029950108064592316_115_00001224744871391589_0,
  115_00000652413241617146_116_00009473598877173782_116_00013486315586436157_016_00015361578413685846_016_00006291970706766932_116_00003338886116348349_015_00000816496580927726_0,
  116_00006024172079894964_116_00009473598877173782_116_00005007727466525647_016_00009442896250860024_016_00006606184330416307_016_00029950108064592316_115_00001224744871391589_0,
  116_00006024172079894964_116_00009473598877173782_116_00015103940951419084_016_00015863161647823627_016_00007391718389539748_116_00003338886116348349_015_00000816496580927726_0,
  116_00006024172079894964_116_00009473598877173782_117_00015493559965621492_117_00038992177772049624_016_00007705932013189124_116_00003338886116348349_015_00000816496580927726_0,
  115_00000652413241617146_116_00010147607733229451_018_00029139010841842207_117_00048020675986529676_016_00008020145636838499_116_00003338886116348349_015_00000816496580927726_0,
  116_00007024092752447672_116_00010821616589285121_016_00013343953398280655_116_00011824232876581913_016_00008334359260487876_116_00003338886116348349_115_00001224744871391589_0,
  116_00007024092752447672_116_00010821616589285121_116_00007350495236500919_016_00010546379365963146_015_00000880567969596194_016_00029950108064592316_115_00001224744871391589_0,
  116_00007024092752447672_116_00010821616589285121_116_00008242978196491499_017_00024207309729310825_016_00009591213755085379_116_00003338886116348349_115_00001224744871391589_0,
  116_00007524053088724167_116_00010821616589285121_117_00014377956265633265_115_00000640713394789387_016_00010062534190559445_116_00003338886116348349_015_00000816496580927726_0,
  116_00007524053088724167_116_00010821616589285121_016_00004084442688378387_117_00038992177772049624_015_00001037674781420882_016_00029950108064592316_115_00001224744871391589_0,
  116_00008024013425000663_116_00010821616589285121_117_00013262352565645041_018_00011344809589729025_015_00001116228187333226_116_00003338886116348349_015_00000816496580927726_0,
  116_00008523973761276875_115_00001149562544534041_116_00008912340416484434_016_00008038463195274238_016_00011476495496981636_116_00003338886116348349_115_00001224744871391589_0,
  116_00008024013425000663_115_00001149562544534041_117_00036690030265397766_118_00008718519775782523_014_00000119478159324557_116_00003338886116348349_015_00000816496580927726_0,
  116_00008024013425000663_115_00001149562544534041_115_00000651379246150975_016_00002721680913413756_016_00012262029556105076_116_00003338886116348349_015_00000816496580927726_0,
  116_00008024013425000663_115_00001216963430139608_116_00004226804876533889_117_00023944680747916175_016_00012576243179754452_116_00003338886116348349_115_00001224744871391589_0,
  116_00008024013425000663_115_00001216963430139608_016_00002522597508394872_017_00010162979173452956_016_00013047563615228517_116_00003338886116348349_115_00001224744871391589_0,
  116_00008024013425000663_115_00001216963430139608_016_00017360126718238265_116_00013028032638512588_015_00001351888405070258_116_00003338886116348349_015_00000816496580927726_0,
  116_00008024013425000663_115_00001216963430139608_118_00060109285157215794_117_00037989011303774045_016_00013833097674351955_116_00003338886116348349_015_00000816496580927726_0,
  116_00008024013425000663_115_00001216963430139608_016_00025002012063157606_115_00002025083121009664_016_00014147311298001333_016_00029950108064592316_115_00001224744871391589_0,
  116_00008024013425000663_116_00012843643157451365_116_00002441838956552729_016_00006032130258723112_016_00014932845357124773_116_00003338886116348349_115_00001224744871391589_0,
  116_00008024013425000663_115_00001216963430139608_115_00000339010210154272_016_00003524214088034203_016_00015404165792598836_016_00029950108064592316_115_00001224744871391589_0,
  116_00008024013425000663_115_00001216963430139608_117_00022187182165550842_019_00013131449069732513_016_00016189699851722277_116_00003338886116348349_115_00001224744871391589_0,
  116_00008024013425000663_115_00001216963430139608_117_00037805633965385993_016_00007035296726998674_015_00001666102028719634_116_00003338886116348349_015_00000816496580927726_0,
  116_00008024013425000663_115_00001216963430139608_116_00014323018361427324_015_00002077867734237389_016_00016975233910845717_116_00003338886116348349_015_00000816496580927726_1,
  116_00008523973761276875_116_00012843643157451365_116_00007071594311503863_016_00012352079008859156_016_00017289447534495093_116_00003338886116348349_015_00000816496580927726_1,
  116_00008523973761276875_116_00012843643157451365_016_00002634157878393695_117_00045011176581703016_116_00016959837443286896_116_00003338886116348349_015_00000816496580927726_0,
  116_00008024013425000663_115_00001216963430139608_116_00003947903951536833_015_00000382516402851687_116_00016645623819637518_116_00003338886116348349_115_00001224744871391589_0,
  116_00007524053088724167_115_00001149562544534041_116_00005509749131520348_016_00003624530734861761_116_00016174303384163455_116_00003338886116348349_115_00001224744871391589_0,
  116_00007524053088724167_116_00010821616589285121_015_00001083384507330715_115_00001403119910678815_115_00001570298294868939_116_00003338886116348349_015_00000816496580927726_0,
  116_00008024013425000663_115_00001216963430139608_016_00004084442688378387_116_00007410300416169433_116_00015388769325040015_016_00029950108064592316_115_00001224744871391589_0,
  116_00008024013425000663_115_00001149562544534041_117_00045057058015309454_016_00002922314207068864_116_00014603235265916574_016_00029950108064592316_115_00001224744871391589_0,
  116_00008024013425000663_115_00001149562544534041_116_00005900210426516227_016_00022383743691614786_116_00013817701206793134_116_00003338886116348349_015_00000816496580927726_1,
  116_00008024013425000663_115_00001149562544534041_115_00001231493170144852_015_00001917361099313299_116_00013503487583143758_116_00003338886116348349_015_00000816496580927726_0,
  116_00008024013425000663_115_00001216963430139608_016_00003972882318379565_116_00005002700892308083_116_00013189273959494383_116_00003338886116348349_115_00001224744871391589_0,
  116_00009023934097553371_116_00012843643157451365_117_00042825850615333005_016_00010847329306445812_116_00012717953524020318_116_00003338886116348349_015_00000816496580927726_0,
  116_00009523894433829583_116_00013517652013507035_014_00000214878604081947_116_00019247664741821078_116_00012403739900370943_116_00003338886116348349_115_00001224744871391589_0,
  116_00009023934097553371_116_00013517652013507035_017_00029130588033907506_116_00006306817301066312_116_00011932419464896877_116_00003338886116348349_115_00001224744871391589_0,
  116_00009023934097553371_116_00012843643157451365_116_00012984293921441454_016_00018371077818512536_116_00011461099029422814_116_00003338886116348349_015_00000816496580927726_0,
  116_00009023934097553371_116_00012843643157451365_114_00000087449998614862_016_00003524214088034203_115_00001114688540577344_116_00003338886116348349_015_00000816496580927726_0,
  116_00009023934097553371_116_00012843643157451365_017_00044191237983748544_115_00000530365083279075_116_00010832671782124061_116_00003338886116348349_015_00000816496580927726_0,
  116_00009023934097553371_115_00001216963430139608_016_00025057792248157016_116_00018645764860855742_116_00010518458158474686_116_00003338886116348349_015_00000816496580927726_0,
  116_00009023934097553371_115_00001216963430139608_116_00005732869871517993_015_00001024542942548048_115_00001020424453482531_116_00003338886116348349_015_00000816496580927726_0,
  116_00009023934097553371_115_00001149562544534041_116_00013095854291440279_016_00009844162838170248_116_00009890030911175934_116_00003338886116348349_015_00000816496580927726_0,
  116_00009023934097553371_115_00001149562544534041_116_00003557442656540954_016_00009944479484997806_116_00009575817287526558_116_00003338886116348349_015_00000816496580927726_0,
  116_00009023934097553371_115_00001149562544534041_016_00015909841908253572_116_00015836898749684165_116_00009261603663877183_016_00029950108064592316_115_00001224744871391589_0,
  116_00009523894433829583_115_00001216963430139608_115_00001097620726146265_016_00008138779842101795_116_00008476069604753742_116_00003338886116348349_115_00001224744871391589_0,
  116_00009523894433829583_115_00001216963430139608_117_00029996408065468416_017_00007153479768626296_116_00008004749169279678_116_00003338886116348349_015_00000816496580927726_0,
  116_00009023934097553371_115_00001216963430139608_016_00007152352863346005_116_00009416633352720559_116_00007690535545630302_116_00003338886116348349_015_00000816496580927726_0,
  116_00009023934097553371_115_00001216963430139608_116_00005175068021523881_117_00017925681938262783_116_00007376321921980926_116_00003338886116348349_015_00000816496580927726_0,
  116_00009523894433829583_115_00001149562544534041_115_00001326319484643851_016_00016063794941478742_115_00000706210829833155_116_00003338886116348349_015_00000816496580927726_0,
  116_00009023934097553371_116_00010821616589285121_116_00008912340416484434_015_00000312294750072398_116_00006747894674682174_116_00003338886116348349_015_00000816496580927726_0,
  116_00008523973761276875_116_00010147607733229451_017_00037497615783819194_115_00000640713394789387_116_00006433681051032798_116_00003338886116348349_015_00000816496580927726_0,
  116_00008523973761276875_116_00010821616589285121_019_00012489183421365824_016_00003423897441206646_116_00006119467427383422_116_00003338886116348349_115_00001224744871391589_0,
  116_00009023934097553371_116_00010821616589285121_116_00003445882286542132_016_00009944479484997806_116_00005648146991909357_116_00003338886116348349_015_00000816496580927726_0,
  116_00009023934097553371_116_00010821616589285121_016_00007096572678346594_116_00005403967479618307_116_00005333933368259982_116_00003338886116348349_015_00000816496580927726_0,
  116_00009023934097553371_116_00010821616589285121_115_00000785251690149562_016_00011850495774721375_116_00005019719744610606_016_00029950108064592316_115_00001224744871391589_0,
  116_00009023934097553371_116_00010821616589285121_016_00007765934898339529_116_00005403967479618307_117_00042341856854871657_016_00029950108064592316_115_00001224744871391589_0,
  116_00009023934097553371_116_00010147607733229451_015_00006354611989775078_115_00002937964607140427_117_00034486516263637257_116_00003338886116348349_115_00001224744871391589_1,
  116_00008523973761276875_116_00010147607733229451_116_00004784606726528002_016_00002922314207068864_117_00029773311908896616_116_00003338886116348349_015_00000816496580927726_0,
  116_00008523973761276875_116_00009473598877173782_116_00005955990611515638_016_00009543212897687582_117_00026631175672402857_016_00029950108064592316_115_00001224744871391589_0,
  116_00008024013425000663_116_00009473598877173782_117_00006568730365715691_016_00000915981270517738_117_00018775835081168454_116_00003338886116348349_115_00001224744871391589_0,
  116_00008024013425000663_116_00008799590021118496_016_00002745718248392517_116_00005002700892308083_117_00014062630726427813_116_00003338886116348349_015_00000816496580927726_0,
  116_00008024013425000663_116_00009473598877173782_116_00005900210426516227_016_00007135613373826232_117_00010920494489934053_116_00003338886116348349_015_00000816496580927726_0]

/-- lr/data.csv 202-301 -/
def dataCsv2 : List ℕ := [
  116_00008024013425000663_116_00009473598877173782_016_00003917102133380153_116_00005002700892308083_117_00007778358253440293_116_00003338886116348349_015_00000816496580927726_0,
  116_00008523973761276875_116_00010147607733229451_017_00020205758434001708_017_00012169312110004112_118_00046362220169465326_116_00003338886116348349_015_00000816496580927726_0,
  116_00008024013425000663_116_00010147607733229451_016_00005423167128364257_117_00043004843645151863_118_00014940857804527726_116_00003338886116348349_115_00001224744871391589_0,
  116_00008024013425000663_116_00010147607733229451_116_00002720739881549785_117_00020935181343089515_017_00003219118574287868_116_00003338886116348349_015_00000816496580927726_0,
  116_00008024013425000663_116_00010147607733229451_016_00011280086553302437_116_00007209667122514325_017_00006361254810781627_116_00003338886116348349_015_00000816496580927726_0,
  116_00007524053088724167_116_00009473598877173782_116_00010864646891463827_016_00013054295536652054_017_00009503391047275388_116_00003338886116348349_115_00001224744871391589_0,
  116_00007524053088724167_116_00008799590021118496_016_00003917102133380153_116_00004701750951825417_016_00001421659540201603_116_00003338886116348349_015_00000816496580927726_0,
  116_00008024013425000663_116_00008799590021118496_116_00006569572646509162_015_00002077867734237389_016_00001735873163850979_116_00003338886116348349_115_00001224744871391589_1,
  116_00008024013425000663_116_00009473598877173782_017_00029130588033907506_117_00032973178962396227_016_00002207193599325043_116_00003338886116348349_015_00000816496580927726_0,
  116_00008024013425000663_116_00009473598877173782_116_00003445882286542132_016_00004025797322171985_016_00002521407222974419_116_00003338886116348349_015_00000816496580927726_0,
  116_00008024013425000663_116_00008799590021118496_117_00008799937765692141_117_00038992177772049624_016_00002835620846623795_116_00003338886116348349_015_00000816496580927726_0,
  116_00007524053088724167_116_00008799590021118496_017_00020205758434001708_116_00006106184007411204_016_00003149834470273171_116_00003338886116348349_015_00000816496580927726_0,
  116_00008024013425000663_116_00008799590021118496_116_00010864646891463827_016_00012953978889824496_016_00003464048093922547_016_00029950108064592316_115_00001224744871391589_0,
  116_00008024013425000663_116_00008799590021118496_116_00008521879121488555_015_00000492864714361999_016_00004249582153045987_116_00003338886116348349_015_00000816496580927726_0,
  116_00008523973761276875_116_00009473598877173782_017_00028014984333919285_117_00028960513089293993_016_00004563795776695363_116_00003338886116348349_115_00001224744871391589_0,
  116_00008523973761276875_116_00009473598877173782_017_00005145108484160671_017_00003140813895523986_016_00005035116212169427_116_00003338886116348349_015_00000816496580927726_0,
  116_00008523973761276875_116_00009473598877173782_117_00022187182165550842_117_00016922515469987276_016_00005349329835818804_116_00003338886116348349_015_00000816496580927726_0,
  116_00008523973761276875_116_00010147607733229451_016_00006985012308347772_116_00008413466884444997_016_00005663543459468179_116_00003338886116348349_015_00000816496580927726_0,
  116_00008523973761276875_116_00009473598877173782_116_00005119287836524469_116_00001892884840653836_016_00005977757083117555_116_00003338886116348349_015_00000816496580927726_0,
  116_00008523973761276875_116_00010147607733229451_116_00005844430241516816_016_00006232763552378227_016_00006291970706766932_116_00003338886116348349_115_00001224744871391589_0,
  116_00008523973761276875_116_00010147607733229451_116_00006848473571506217_016_00012753345596169388_016_00006763291142240996_116_00003338886116348349_015_00000816496580927726_0,
  116_00008024013425000663_116_00010147607733229451_016_00016077182463251805_116_00015736582102856609_016_00007077504765890371_016_00029950108064592316_115_00001224744871391589_0,
  116_00008024013425000663_116_00009473598877173782_116_00013095854291440279_016_00005028963790447548_016_00007863038825013812_116_00003338886116348349_015_00000816496580927726_0,
  116_00008024013425000663_116_00009473598877173782_017_00016858947334037033_116_00005604600773273423_016_00008177252448663187_116_00003338886116348349_015_00000816496580927726_0,
  116_00008523973761276875_116_00009473598877173782_016_00002522597508394872_116_00010720749761478792_016_00008491466072312563_116_00003338886116348349_015_00000816496580927726_0,
  116_00008523973761276875_116_00010147607733229451_116_00009860603561474425_016_00013856828711272502_015_00000880567969596194_116_00003338886116348349_015_00000816496580927726_0,
  116_00008523973761276875_116_00010821616589285121_116_00011701349666454997_016_00009242262957204916_016_00009119893319611315_116_00003338886116348349_015_00000816496580927726_0,
  116_00008523973761276875_116_00010147607733229451_019_00012489183421365824_117_00038992177772049624_016_00009434106943260692_116_00003338886116348349_015_00000816496580927726_0,
  116_00008523973761276875_116_00010147607733229451_016_00005032705833368378_117_00028960513089293993_016_00009748320566910068_116_00003338886116348349_115_00001224744871391589_0,
  116_00008523973761276875_116_00010147607733229451_118_00004329100157804543_116_00007811567003479657_016_00010219641002384132_116_00003338886116348349_015_00000816496580927726_0,
  116_00008523973761276875_116_00009473598877173782_017_00017416749184031147_116_00005203334185963199_016_00010533854626033508_116_00003338886116348349_015_00000816496580927726_0,
  116_00008523973761276875_116_00010821616589285121_116_00007294715051501508_015_00000312294750072398_016_00010848068249682883_116_00003338886116348349_015_00000816496580927726_0,
  116_00009023934097553371_116_00010821616589285121_116_00006402232091510928_016_00007637196607964014_015_00001116228187333226_116_00003338886116348349_015_00000816496580927726_0,
  116_00009023934097553371_116_00010821616589285121_116_00001493575811562738_116_00005103017539135641_016_00011476495496981636_116_00003338886116348349_015_00000816496580927726_0,
  116_00009023934097553371_116_00010821616589285121_115_00000339010210154272_016_00002922314207068864_015_00001179070912063101_116_00003338886116348349_015_00000816496580927726_0,
  116_00009523894433829583_115_00001149562544534041_016_00007877495268338351_116_00006306817301066312_016_00012104922744280389_116_00003338886116348349_115_00001224744871391589_0,
  116_00009523894433829583_115_00001149562544534041_116_00002441838956552729_117_00012909849596884967_016_00012576243179754452_116_00003338886116348349_015_00000816496580927726_0,
  116_00010023854770106078_116_00012843643157451365_016_00000737631588413712_117_00033976345430671806_016_00012890456803403827_116_00003338886116348349_115_00001224744871391589_0,
  116_00010523815106382575_116_00012843643157451365_116_00008131417826492676_015_00001034574607230803_016_00013361777238877892_116_00003338886116348349_015_00000816496580927726_0,
  116_00010023854770106078_115_00001216963430139608_016_00004028662503378976_116_00009416633352720559_016_00013675990862527267_116_00003338886116348349_015_00000816496580927726_0,
  116_00010023854770106078_116_00012843643157451365_116_00011143547816460884_016_00011649862481066267_016_00013990204486176645_116_00003338886116348349_115_00001224744871391589_0,
  116_00010023854770106078_116_00012843643157451365_016_00013288173213281242_116_00015736582102856609_016_00014461524921650708_116_00003338886116348349_015_00000816496580927726_0,
  116_00010023854770106078_115_00001216963430139608_116_00010641526151466183_016_00018872661052650317_016_00014775738545300083_116_00003338886116348349_015_00000816496580927726_1,
  116_00010023854770106078_115_00001216963430139608_116_00005398188761521525_016_00004126113968999543_015_00001508995216894946_116_00003338886116348349_015_00000816496580927726_0,
  116_00010023854770106078_115_00001216963430139608_116_00008019857456493854_016_00009141946310377358_016_00015404165792598836_116_00003338886116348349_115_00001224744871391589_0,
  116_00010523815106382575_116_00012843643157451365_017_00049211454633695556_116_00008614100178100111_014_00000158754862280729_116_00003338886116348349_115_00001224744871391589_0,
  116_00010523815106382575_116_00012843643157451365_016_00002578377693394283_116_00006507450594721428_016_00016346806663546964_116_00003338886116348349_015_00000816496580927726_0,
  116_00010023854770106078_115_00001216963430139608_117_00038921237665374214_016_00005530547024585329_015_00001666102028719634_116_00003338886116348349_015_00000816496580927726_0,
  116_00010023854770106078_115_00001149562544534041_116_00009860603561474425_015_00001686632811609919_016_00016975233910845717_116_00003338886116348349_015_00000816496580927726_1,
  116_00010023854770106078_115_00001149562544534041_116_00007462055606499741_016_00016264428235133859_016_00017289447534495093_116_00003338886116348349_015_00000816496580927726_1,
  116_00010023854770106078_115_00001149562544534041_016_00006873451938348949_116_00007309983769341876_116_00016959837443286896_116_00003338886116348349_015_00000816496580927726_0,
  116_00010023854770106078_115_00001216963430139608_116_00004059464321535655_016_00002621364266586198_116_00016645623819637518_116_00003338886116348349_115_00001224744871391589_0,
  116_00010023854770106078_115_00001216963430139608_016_00004530684168373677_117_00042001677176876356_116_00016174303384163455_116_00003338886116348349_015_00000816496580927726_0,
  116_00010023854770106078_115_00001216963430139608_116_00010139504486471482_016_00008239096488929353_116_00015860089760514078_116_00003338886116348349_015_00000816496580927726_0,
  116_00010023854770106078_115_00001216963430139608_117_00013820154415639155_117_00020935181343089515_116_00015545876136864702_116_00003338886116348349_015_00000816496580927726_0,
  116_00010023854770106078_115_00001216963430139608_116_00002776520066549197_017_00004143980363799563_116_00015231662513215327_116_00003338886116348349_015_00000816496580927726_0,
  116_00009523894433829583_115_00001149562544534041_116_00011589789296456174_016_00023085960219407684_115_00001491744888956595_116_00003338886116348349_015_00000816496580927726_0,
  116_00010023854770106078_116_00013517652013507035_017_00042517832433766206_116_00010520116467823681_116_00014603235265916574_116_00003338886116348349_015_00000816496580927726_0,
  116_00009523894433829583_115_00001216963430139608_117_00031669813615450754_117_00020935181343089515_114_00000142890216422672_116_00003338886116348349_015_00000816496580927726_0,
  116_00009523894433829583_115_00001216963430139608_116_00006625352831508573_015_00002398881004085569_116_00013974808018617824_116_00003338886116348349_115_00001224744871391589_1,
  116_00009023934097553371_115_00001149562544534041_117_00009357739615686254_016_00009141946310377358_116_00013503487583143758_116_00003338886116348349_115_00001224744871391589_0,
  116_00009523894433829583_115_00001216963430139608_016_00006427210458353659_116_00007911883650307214_116_00013032167147669695_116_00003338886116348349_015_00000816496580927726_0,
  116_00009523894433829583_115_00001216963430139608_015_00001100118562830538_114_00000132286659321677_116_00012717953524020318_116_00003338886116348349_115_00001224744871391589_0,
  116_00010023854770106078_116_00012843643157451365_016_00002689938063393106_116_00007711250356652106_116_00012246633088546255_116_00003338886116348349_115_00001224744871391589_0,
  116_00009523894433829583_115_00001216963430139608_115_00000829875838149091_016_00007536879961136456_115_00001177531265307219_116_00003338886116348349_015_00000816496580927726_0,
  116_00010023854770106078_116_00012843643157451365_115_00000472882654152859_117_00028960513089293993_116_00011461099029422814_116_00003338886116348349_015_00000816496580927726_0,
  116_00010023854770106078_116_00012843643157451365_116_00005509749131520348_016_00003724847381689319_115_00001114688540577344_016_00029950108064592316_115_00001224744871391589_0,
  116_00010523815106382575_116_00013517652013507035_016_00023161265958177033_115_00001894671480133841_116_00010361351346649998_116_00003338886116348349_015_00000816496580927726_0,
  116_00010523815106382575_116_00013517652013507035_016_00014571117468267702_116_00015234998868718825_116_00010047137723000623_016_00029950108064592316_115_00001224744871391589_0,
  116_00010023854770106078_116_00013517652013507035_117_00008242135915698029_117_00029963679557569567_116_00009261603663877183_116_00003338886116348349_015_00000816496580927726_0,
  116_00010023854770106078_116_00013517652013507035_117_00010473343315674478_117_00003881351382404913_116_00008947390040227806_016_00029950108064592316_115_00001224744871391589_0,
  116_00009523894433829583_116_00012843643157451365_116_00004840386911527413_017_00008156646236901802_116_00008161855981104366_116_00003338886116348349_115_00001224744871391589_0,
  116_00009523894433829583_116_00012843643157451365_117_00030554209915462527_017_00004143980363799563_116_00007690535545630302_116_00003338886116348349_015_00000816496580927726_0,
  116_00009523894433829583_116_00013517652013507035_116_00006290671721512106_016_00006032130258723112_116_00007376321921980926_116_00003338886116348349_015_00000816496580927726_0,
  116_00009523894433829583_116_00013517652013507035_016_00006315650088354837_116_00011523282936099244_115_00000706210829833155_116_00003338886116348349_015_00000816496580927726_0,
  116_00010023854770106078_116_00013517652013507035_116_00007685176346497387_016_00014759678532720513_116_00006747894674682174_116_00003338886116348349_015_00000816496580927726_0,
  116_00010023854770106078_116_00014191660869562706_015_00001178210821829714_116_00013429299225822813_116_00006433681051032798_116_00003338886116348349_115_00001224744871391589_0,
  116_00010023854770106078_116_00013517652013507035_116_00003334321916543309_015_00001074701265961826_116_00005962360615558734_016_00029950108064592316_115_00001224744871391589_0,
  116_00010023854770106078_116_00013517652013507035_016_00004530684168373677_116_00010620433114651238_116_00005176826556435293_116_00003338886116348349_115_00001224744871391589_0,
  116_00010023854770106078_116_00012843643157451365_016_00015630940983256516_116_00016639431924304617_115_00000470550612096123_116_00003338886116348349_015_00000816496580927726_0,
  116_00009523894433829583_116_00012843643157451365_116_00004617266171529768_016_00003724847381689319_116_00004391292497311854_116_00003338886116348349_115_00001224744871391589_0,
  116_00009523894433829583_116_00013517652013507035_017_00048653652783701445_117_00034979511898947385_115_00000391997206183779_116_00003338886116348349_015_00000816496580927726_0,
  116_00009523894433829583_116_00012843643157451365_115_00000829875838149091_016_00009844162838170248_117_00036057584381884134_116_00003338886116348349_115_00001224744871391589_0,
  116_00009023934097553371_115_00001216963430139608_117_00038921237665374214_016_00003022630853896422_115_00000313443800271435_116_00003338886116348349_015_00000816496580927726_0,
  116_00009023934097553371_115_00001149562544534041_016_00028571943903119927_116_00020852731091061982_117_00028202243790649734_116_00003338886116348349_015_00000816496580927726_0,
  116_00009023934097553371_115_00001149562544534041_016_00001630114548404292_115_00000399953442403252_117_00025060107554155975_116_00003338886116348349_015_00000816496580927726_0,
  116_00009023934097553371_115_00001149562544534041_017_00028014984333919285_116_00006808400535204094_117_00021917971317662216_116_00003338886116348349_015_00000816496580927726_0,
  116_00009023934097553371_115_00001149562544534041_015_00001485001839326476_116_00008413466884444997_117_00018775835081168454_116_00003338886116348349_015_00000816496580927726_0,
  116_00009023934097553371_116_00010821616589285121_116_00008577659306487967_016_00002220097679275974_117_00015633698844674693_016_00029950108064592316_115_00001224744871391589_0,
  116_00009523894433829583_116_00010821616589285121_116_00005732869871517993_016_00006734346786516008_117_00007778358253440293_116_00003338886116348349_015_00000816496580927726_0,
  116_00009523894433829583_116_00010821616589285121_115_00000562130950151917_016_00005630863671412888_118_00046362220169465326_116_00003338886116348349_015_00000816496580927726_0,
  116_00010023854770106078_115_00001149562544534041_117_00036690030265397766_016_00002621364266586198_118_00014940857804527726_116_00003338886116348349_015_00000816496580927726_0,
  116_00009523894433829583_116_00010821616589285121_116_00011366668556458528_018_00021376474272484798_018_00016480504560409875_116_00003338886116348349_015_00000816496580927726_0,
  116_00009523894433829583_116_00010147607733229451_116_00008187198011492087_016_00004828330496792433_017_00004790186692534748_016_00029950108064592316_115_00001224744871391589_0,
  116_00009523894433829583_116_00010147607733229451_116_00009302801711480313_016_00011148279246928485_017_00012645527283769148_116_00003338886116348349_115_00001224744871391589_0,
  116_00009523894433829583_116_00009473598877173782_016_00009885581928317156_116_00009316316705893005_016_00001735873163850979_116_00003338886116348349_115_00001224744871391589_0,
  116_00010023854770106078_116_00010147607733229451_116_00008019857456493854_016_00006232763552378227_016_00002207193599325043_116_00003338886116348349_015_00000816496580927726_0,
  116_00010023854770106078_116_00010147607733229451_016_00009718241373318923_116_00014733415634581044_016_00002521407222974419_116_00003338886116348349_015_00000816496580927726_0,
  116_00010523815106382575_116_00010147607733229451_013_00000032922798333074_116_00021354314325199764_016_00002835620846623795_016_00029950108064592316_115_00001224744871391589_0,
  116_00011023775442658785_115_00001149562544534041_016_00001574334363404881_117_00044008010113427437_017_00036211549057472353_116_00003338886116348349_115_00001224744871391589_0]

/-- lr/data.csv 302-401 -/
def dataCsv3 : List ℕ := [
  116_00011023775442658785_116_00010821616589285121_014_00000046422445383725_117_00016922515469987276_016_00004092475341221299_116_00003338886116348349_015_00000816496580927726_0,
  116_00011523735778935282_116_00010821616589285121_016_00011224306368303028_116_00012927715991685031_017_00044066889648706753_116_00003338886116348349_015_00000816496580927726_0,
  116_00011023775442658785_116_00010821616589285121_116_00001493575811562738_117_00049023842454805255_016_00004720902588520051_016_00029950108064592316_115_00001224744871391589_0,
  116_00011023775442658785_116_00010821616589285121_116_00003334321916543309_016_00003524214088034203_016_00005506436647643491_116_00003338886116348349_115_00001224744871391589_0,
  116_00011023775442658785_116_00010821616589285121_016_00011056965813304793_116_00012526449404374806_016_00005977757083117555_116_00003338886116348349_015_00000816496580927726_0,
  116_00011023775442658785_116_00010821616589285121_013_00000032922798333074_116_00020852731091061982_016_00006291970706766932_116_00003338886116348349_015_00000816496580927726_0,
  116_00011023775442658785_116_00010821616589285121_115_00000919124134148149_016_00007135613373826232_016_00006606184330416307_116_00003338886116348349_015_00000816496580927726_0,
  116_00011023775442658785_116_00010821616589285121_016_00002243696583397816_117_00033976345430671806_016_00006920397954065683_116_00003338886116348349_115_00001224744871391589_0,
  116_00010523815106382575_116_00010147607733229451_116_00013040074106440867_015_00000723593002065379_016_00007391718389539748_116_00003338886116348349_015_00000816496580927726_0,
  116_00010523815106382575_116_00010147607733229451_116_00005007727466525647_017_00008156646236901802_016_00007705932013189124_116_00003338886116348349_115_00001224744871391589_0,
  116_00010023854770106078_116_00009473598877173782_117_00007126532215709803_017_00018188310919657433_016_00008177252448663187_016_00029950108064592316_115_00001224744871391589_0,
  116_00010023854770106078_116_00009473598877173782_116_00004784606726528002_016_00004126113968999543_016_00008962786507786628_116_00003338886116348349_115_00001224744871391589_0,
  116_00010523815106382575_116_00009473598877173782_116_00003947903951536833_115_00000399953442403252_016_00009434106943260692_116_00003338886116348349_015_00000816496580927726_0,
  116_00010023854770106078_116_00009473598877173782_116_00012593832626445576_016_00010847329306445812_016_00009748320566910068_116_00003338886116348349_015_00000816496580927726_0,
  116_00010523815106382575_116_00010147607733229451_116_00013318975031437923_016_00013054295536652054_016_00010062534190559445_116_00003338886116348349_115_00001224744871391589_0,
  116_00010523815106382575_116_00010821616589285121_015_00000598096897835837_017_00006150313300350718_016_00010533854626033508_116_00003338886116348349_015_00000816496580927726_0,
  116_00011023775442658785_116_00010821616589285121_016_00009774021558318334_116_00006808400535204094_016_00010848068249682883_116_00003338886116348349_015_00000816496580927726_0,
  116_00011023775442658785_116_00010821616589285121_016_00008156396193335408_114_00000116235995829268_015_00001116228187333226_116_00003338886116348349_015_00000816496580927726_0,
  116_00011023775442658785_116_00010821616589285121_116_00001493575811562738_118_00008718519775782523_016_00011476495496981636_116_00003338886116348349_015_00000816496580927726_0,
  116_00011023775442658785_116_00010821616589285121_016_00004084442688378387_116_00007911883650307214_015_00001179070912063101_116_00003338886116348349_015_00000816496580927726_0,
  116_00011023775442658785_116_00010821616589285121_017_00006260712184148895_117_00017925681938262783_016_00012104922744280389_016_00029950108064592316_115_00001224744871391589_0,
  116_00011023775442658785_116_00010821616589285121_117_00011588947015662704_116_00007510617062996991_016_00012890456803403827_116_00003338886116348349_015_00000816496580927726_0,
  116_00011023775442658785_116_00010147607733229451_116_00005063507651525058_019_00013131449069732513_016_00013204670427053204_116_00003338886116348349_015_00000816496580927726_0,
  116_00011023775442658785_116_00010147607733229451_017_00012396532534084133_016_00006333080199205777_015_00001351888405070258_116_00003338886116348349_015_00000816496580927726_0,
  116_00011023775442658785_116_00010147607733229451_116_00002832300251548608_016_00001919147738793301_016_00013833097674351955_116_00003338886116348349_115_00001224744871391589_0,
  116_00011023775442658785_116_00010147607733229451_016_00008937318783327166_116_00012225499463892138_015_00001430441810982602_116_00003338886116348349_015_00000816496580927726_0,
  116_00011523735778935282_116_00010147607733229451_117_00021071578465562615_017_00014175645046555194_016_00014618631733475396_116_00003338886116348349_015_00000816496580927726_0,
  116_00011523735778935282_116_00010147607733229451_116_00009247021526480902_015_00001676601146927164_016_00014932845357124773_116_00003338886116348349_015_00000816496580927726_1,
  116_00012023696115211493_116_00010821616589285121_015_00000916043952332481_116_00008614100178100111_016_00015247058980774149_016_00029950108064592316_115_00001224744871391589_0,
  116_00011523735778935282_116_00010147607733229451_016_00010108702668314802_116_00010118849880513456_015_00001603259303989759_016_00029950108064592316_115_00001224744871391589_0,
  116_00012023696115211493_116_00010821616589285121_115_00000785251690149562_016_00001919147738793301_016_00016818127099021027_116_00003338886116348349_115_00001224744871391589_0,
  116_00012023696115211493_116_00010821616589285121_116_00008242978196491499_016_00011950812421548933_016_00017289447534495093_116_00003338886116348349_115_00001224744871391589_0,
  116_00012023696115211493_115_00001149562544534041_118_00004329100157804543_018_00021376474272484798_116_00016959837443286896_116_00003338886116348349_115_00001224744871391589_0,
  115_00001252365645148799_115_00001216963430139608_016_00006036749163357781_116_00008714416824927665_115_00001648851700781283_116_00003338886116348349_015_00000816496580927726_0,
  115_00001252365645148799_116_00012843643157451365_117_00038921237665374214_016_00004828330496792433_116_00016174303384163455_116_00003338886116348349_115_00001224744871391589_0,
  116_00013023616787764485_116_00012843643157451365_016_00011726328033297728_116_00014131515753615709_115_00001570298294868939_116_00003338886116348349_015_00000816496580927726_0,
  116_00012023696115211493_115_00001216963430139608_016_00025448253543152894_116_00019548614682303749_116_00015388769325040015_116_00003338886116348349_115_00001224744871391589_0,
  116_00012023696115211493_115_00001149562544534041_015_00001133586673830185_116_00012325816110719694_115_00001491744888956595_116_00003338886116348349_015_00000816496580927726_0,
  115_00001252365645148799_115_00001216963430139608_017_00013512136234072358_117_00017925681938262783_116_00014603235265916574_116_00003338886116348349_015_00000816496580927726_0,
  115_00001252365645148799_115_00001216963430139608_016_00009718241373318923_116_00007811567003479657_114_00000142890216422672_116_00003338886116348349_115_00001224744871391589_0,
  116_00013023616787764485_116_00012843643157451365_117_00036132228415403655_117_00005887684318956068_116_00013817701206793134_116_00003338886116348349_015_00000816496580927726_0,
  116_00013023616787764485_115_00001216963430139608_117_00004895324815733354_116_00007410300416169433_116_00013503487583143758_116_00003338886116348349_115_00001224744871391589_0,
  116_00013023616787764485_115_00001216963430139608_117_00037805633965385993_016_00006533713492860893_116_00013032167147669695_116_00003338886116348349_015_00000816496580927726_0,
  115_00001252365645148799_115_00001149562544534041_116_00008410318751489733_016_00008640363076239577_116_00012717953524020318_116_00003338886116348349_015_00000816496580927726_0,
  115_00001252365645148799_115_00001216963430139608_015_00005071667734788619_115_00002626983001975002_116_00012403739900370943_116_00003338886116348349_115_00001224744871391589_0,
  115_00001252365645148799_115_00001149562544534041_016_00002578377693394283_116_00007109350475686768_116_00011932419464896877_116_00003338886116348349_015_00000816496580927726_0,
  115_00001252365645148799_115_00001149562544534041_117_00044499256165315343_016_00005229597084102664_116_00011618205841247502_116_00003338886116348349_115_00001224744871391589_0,
  115_00001252365645148799_115_00001149562544534041_018_00029139010841842207_017_00008156646236901802_115_00001114688540577344_116_00003338886116348349_015_00000816496580927726_0,
  116_00012023696115211493_115_00001149562544534041_017_00043633436133754433_116_00008313150237617443_116_00010832671782124061_116_00003338886116348349_015_00000816496580927726_0,
  116_00012023696115211493_115_00001149562544534041_016_00003136179543388396_115_00000570491742010098_116_00010518458158474686_116_00003338886116348349_015_00000816496580927726_0,
  116_00012023696115211493_115_00001149562544534041_116_00007740956531496798_016_00004326747262654651_115_00001020424453482531_016_00029950108064592316_115_00001224744871391589_0,
  116_00012023696115211493_116_00010821616589285121_016_00004028662503378976_116_00009015366765410335_115_00000941871047570187_116_00003338886116348349_115_00001224744871391589_0,
  116_00012023696115211493_116_00010821616589285121_116_00001772476736559794_016_00006032130258723112_116_00008947390040227806_116_00003338886116348349_115_00001224744871391589_0,
  115_00001252365645148799_115_00001149562544534041_016_00007542814158341884_116_00010018533233685898_116_00008476069604753742_016_00029950108064592316_115_00001224744871391589_0,
  116_00012023696115211493_115_00001149562544534041_016_00006650331198351305_115_00000570491742010098_116_00007690535545630302_116_00003338886116348349_015_00000816496580927726_0,
  116_00012023696115211493_115_00001149562544534041_016_00004698024723371911_117_00030966846025845146_116_00007376321921980926_116_00003338886116348349_015_00000816496580927726_0,
  116_00012023696115211493_116_00010821616589285121_115_00000785251690149562_016_00008941313016722243_115_00000706210829833155_116_00003338886116348349_115_00001224744871391589_0,
  116_00012023696115211493_116_00010821616589285121_117_00012146748865656816_116_00005805234066928531_116_00006590787862857486_116_00003338886116348349_015_00000816496580927726_0,
  116_00012023696115211493_115_00001149562544534041_116_00004003684136536244_117_00032973178962396227_115_00000627657423920811_116_00003338886116348349_115_00001224744871391589_0,
  116_00012023696115211493_115_00001149562544534041_016_00001574334363404881_116_00005403967479618307_116_00005805253803734046_116_00003338886116348349_115_00001224744871391589_0,
  115_00001252365645148799_115_00001149562544534041_117_00009915541465680366_117_00017925681938262783_116_00005333933368259982_116_00003338886116348349_115_00001224744871391589_0,
  115_00001252365645148799_115_00001149562544534041_016_00003191959728387807_117_00031970012494120725_117_00048626129327859174_116_00003338886116348349_015_00000816496580927726_0,
  116_00012023696115211493_115_00001149562544534041_016_00005646287868361902_116_00009115683412237894_117_00045483993091365416_016_00029950108064592316_115_00001224744871391589_0,
  116_00012023696115211493_115_00001149562544534041_115_00000562130950151917_016_00007837829901619122_117_00037628652500131016_116_00003338886116348349_015_00000816496580927726_0,
  116_00012023696115211493_116_00010821616589285121_116_00007350495236500919_016_00015261261766858294_117_00034486516263637257_116_00003338886116348349_015_00000816496580927726_0,
  116_00012023696115211493_116_00010821616589285121_116_00010362625226469127_016_00017568544643892088_115_00000313443800271435_116_00003338886116348349_015_00000816496580927726_0,
  116_00012023696115211493_116_00010147607733229451_016_00000737631588413712_016_00000915981270517738_117_00028202243790649734_116_00003338886116348349_115_00001224744871391589_0,
  116_00012023696115211493_116_00010821616589285121_017_00016858947334037033_117_00016922515469987276_117_00023489039435909095_116_00003338886116348349_115_00001224744871391589_0,
  115_00001252365645148799_116_00010821616589285121_116_00002776520066549197_117_00004884517850680491_117_00018775835081168454_116_00003338886116348349_015_00000816496580927726_0,
  115_00001252365645148799_116_00010821616589285121_016_00002689938063393106_117_00038992177772049624_117_00015633698844674693_016_00029950108064592316_115_00001224744871391589_0,
  115_00001252365645148799_115_00001149562544534041_014_00000046422445383725_117_00027957346621018414_117_00007778358253440293_116_00003338886116348349_115_00001224744871391589_0,
  115_00001252365645148799_116_00010821616589285121_016_00003638201208383097_116_00001892884840653836_117_00003065153898699653_116_00003338886116348349_015_00000816496580927726_0,
  116_00013023616787764485_115_00001149562544534041_116_00007462055606499741_016_00011750179127893825_019_00007698233779410749_116_00003338886116348349_115_00001224744871391589_0,
  116_00013023616787764485_115_00001149562544534041_116_00007071594311503863_017_00020194643856208588_017_00004790186692534748_116_00003338886116348349_015_00000816496580927726_0,
  116_00013023616787764485_115_00001149562544534041_116_00006011770796515049_016_00003022630853896422_017_00007932322929028508_116_00003338886116348349_015_00000816496580927726_0,
  116_00013023616787764485_115_00001216963430139608_118_00032219192657510165_116_00002595101368446733_017_00011074459165522269_116_00003338886116348349_015_00000816496580927726_0,
  116_00013023616787764485_115_00001216963430139608_116_00007685176346497387_016_00011950812421548933_016_00001421659540201603_116_00003338886116348349_115_00001224744871391589_0,
  116_00013023616787764485_115_00001216963430139608_116_00006402232091510928_016_00013957145358100058_017_00018929799756756668_116_00003338886116348349_115_00001224744871391589_0,
  116_00013523577124040698_115_00001216963430139608_016_00012005228958294785_116_00010620433114651238_016_00002364300411149731_116_00003338886116348349_015_00000816496580927726_0,
  116_00013523577124040698_115_00001216963430139608_016_00012005228958294785_114_00000132286659321677_016_00002678514034799107_116_00003338886116348349_015_00000816496580927726_0,
  115_00001252365645148799_115_00001149562544534041_016_00057187178807817896_116_00027272996488025583_016_00002992727658448483_116_00003338886116348349_015_00000816496580927726_1,
  115_00001252365645148799_116_00010147607733229451_018_00040295047841724455_017_00004143980363799563_016_00003306941282097859_116_00003338886116348349_015_00000816496580927726_0,
  115_00001252365645148799_116_00010147607733229451_116_00011366668556458528_016_00008038463195274238_017_00036211549057472353_116_00003338886116348349_015_00000816496580927726_0,
  115_00001252365645148799_116_00009473598877173782_016_00016913885238242974_116_00013028032638512588_016_00003935368529396611_116_00003338886116348349_115_00001224744871391589_0,
  115_00001252365645148799_116_00010147607733229451_016_00009662461188319512_114_00000132286659321677_017_00044066889648706753_116_00003338886116348349_015_00000816496580927726_0,
  116_00012023696115211493_116_00009473598877173782_115_00000696003394150504_016_00005430230377757772_016_00004720902588520051_116_00003338886116348349_115_00001224744871391589_0,
  116_00012023696115211493_116_00008799590021118496_115_00001225915151644911_016_00010947645953273368_016_00005192223023994115_116_00003338886116348349_015_00000816496580927726_0,
  116_00011523735778935282_116_00008799590021118496_116_00016163764466407897_016_00020477727401891217_016_00005506436647643491_116_00003338886116348349_015_00000816496580927726_0,
  116_00012023696115211493_116_00008799590021118496_116_00004673046356529179_016_00008239096488929353_016_00005820650271292868_116_00003338886116348349_015_00000816496580927726_0,
  116_00012023696115211493_116_00008799590021118496_116_00007294715051501508_016_00014859995179548064_016_00006134863894942243_116_00003338886116348349_115_00001224744871391589_0,
  116_00012023696115211493_116_00008799590021118496_117_00043941454315321227_016_00006734346786516008_016_00006606184330416307_116_00003338886116348349_015_00000816496580927726_0,
  116_00012023696115211493_116_00009473598877173782_116_00002664959696550374_116_00001892884840653836_016_00006920397954065683_116_00003338886116348349_015_00000816496580927726_0,
  116_00012023696115211493_116_00010147607733229451_116_00002720739881549785_016_00003423897441206646_015_00000723461157771506_116_00003338886116348349_115_00001224744871391589_0,
  115_00001252365645148799_116_00010821616589285121_115_00001052996578146736_016_00012251762362031606_016_00007705932013189124_116_00003338886116348349_115_00001224744871391589_0,
  115_00001252365645148799_116_00010821616589285121_118_00060109285157215794_118_00008718519775782523_016_00008177252448663187_116_00003338886116348349_015_00000816496580927726_0,
  116_00013023616787764485_115_00001149562544534041_017_00017974551034025257_117_00022941514279640599_016_00008491466072312563_116_00003338886116348349_015_00000816496580927726_0,
  116_00013023616787764485_115_00001149562544534041_116_00002720739881549785_016_00002621364266586198_015_00000880567969596194_116_00003338886116348349_015_00000816496580927726_0,
  116_00013023616787764485_115_00001149562544534041_015_00001312083265828301_115_00001112201634878902_016_00009119893319611315_116_00003338886116348349_115_00001224744871391589_0,
  116_00013023616787764485_115_00001149562544534041_117_00020513776615568505_016_00003624530734861761_016_00009591213755085379_016_00029950108064592316_115_00001224744871391589_0,
  116_00013023616787764485_116_00010821616589285121_116_00008187198011492087_016_00009743846191342698_015_00001037674781420882_116_00003338886116348349_015_00000816496580927726_0]

/-- lr/data.csv 402-501 -/
def dataCsv4 : List ℕ := [
  116_00013023616787764485_116_00010147607733229451_016_00031305172968091077_116_00023160013968095776_016_00010690961437858195_116_00003338886116348349_015_00000816496580927726_0,
  115_00001252365645148799_116_00010147607733229451_016_00010220263038313624_116_00009617266646375675_016_00011005175061507573_116_00003338886116348349_015_00000816496580927726_0,
  116_00013023616787764485_116_00009473598877173782_016_00007765934898339529_116_00007711250356652106_016_00011319388685156948_116_00003338886116348349_015_00000816496580927726_0,
  116_00013523577124040698_116_00009473598877173782_116_00014825040026422027_015_00001987582752092588_016_00011633602308806323_116_00003338886116348349_015_00000816496580927726_0,
  116_00013523577124040698_116_00009473598877173782_116_00013486315586436157_016_00005931813611895553_014_00000119478159324557_116_00003338886116348349_015_00000816496580927726_0,
  116_00013523577124040698_116_00010147607733229451_115_00001052996578146736_016_00017668861290719644_016_00012262029556105076_116_00003338886116348349_015_00000816496580927726_0,
  116_00013023616787764485_116_00009473598877173782_115_00000556552931651976_016_00011950812421548933_016_00012576243179754452_116_00003338886116348349_015_00000816496580927726_0,
  116_00013023616787764485_116_00010147607733229451_016_00003415080468385452_017_00021197810324484165_016_00012890456803403827_116_00003338886116348349_115_00001224744871391589_0,
  116_00013023616787764485_116_00009473598877173782_116_00005844430241516816_016_00004427063909482209_016_00013361777238877892_116_00003338886116348349_115_00001224744871391589_0,
  116_00013023616787764485_116_00009473598877173782_117_00044499256165315343_017_00013172478578279617_016_00013833097674351955_116_00003338886116348349_015_00000816496580927726_0,
  115_00001252365645148799_116_00009473598877173782_117_00037247832115391877_015_00000492864714361999_016_00014147311298001333_116_00003338886116348349_115_00001224744871391589_0,
  115_00001252365645148799_116_00008799590021118496_116_00006123331166513871_016_00004326747262654651_016_00014618631733475396_116_00003338886116348349_015_00000816496580927726_0,
  115_00001252365645148799_116_00009473598877173782_116_00008410318751489733_016_00008239096488929353_016_00014932845357124773_116_00003338886116348349_015_00000816496580927726_0,
  116_00013023616787764485_116_00010821616589285121_017_00019090154734013484_116_00005504284126445864_016_00015247058980774149_116_00003338886116348349_015_00000816496580927726_0,
  116_00013023616787764485_116_00010821616589285121_016_00002745718248392517_116_00007510617062996991_016_00015561272604423524_116_00003338886116348349_015_00000816496580927726_0,
  115_00001252365645148799_116_00010821616589285121_117_00015493559965621492_017_00028219975602413067_014_00000158754862280729_116_00003338886116348349_015_00000816496580927726_0,
  116_00013023616787764485_116_00010147607733229451_116_00002441838956552729_117_00021938347811365091_016_00016189699851722277_116_00003338886116348349_015_00000816496580927726_0,
  116_00013023616787764485_116_00010821616589285121_116_00008075637641493265_015_00001014511277865292_016_00016503913475371652_116_00003338886116348349_015_00000816496580927726_0,
  116_00013023616787764485_116_00010821616589285121_015_00003414996240306105_116_00022357480793475326_116_00016959837443286896_116_00003338886116348349_015_00000816496580927726_0,
  116_00013523577124040698_115_00001149562544534041_117_00021071578465562615_117_00017925681938262783_116_00016645623819637518_116_00003338886116348349_115_00001224744871391589_0,
  116_00013523577124040698_115_00001149562544534041_115_00001326319484643851_117_00003881351382404913_116_00016174303384163455_116_00003338886116348349_115_00001224744871391589_0,
  116_00013523577124040698_115_00001149562544534041_016_00006594551013351894_116_00008915050118582778_115_00001570298294868939_116_00003338886116348349_115_00001224744871391589_0,
  116_00013523577124040698_115_00001149562544534041_116_00011478228926457352_016_00015261261766858294_116_00015231662513215327_116_00003338886116348349_015_00000816496580927726_0,
  116_00013523577124040698_115_00001149562544534041_117_00030554209915462527_016_00003925480675344427_115_00001491744888956595_116_00003338886116348349_015_00000816496580927726_0,
  116_00013523577124040698_116_00010821616589285121_115_00000606755098151446_016_00005731180318240445_116_00014603235265916574_116_00003338886116348349_015_00000816496580927726_0,
  116_00013523577124040698_116_00010821616589285121_016_00007040792493347183_115_00001112201634878902_114_00000142890216422672_116_00003338886116348349_115_00001224744871391589_0,
  116_00013023616787764485_116_00010147607733229451_117_00021071578465562615_015_00000492864714361999_116_00013817701206793134_116_00003338886116348349_015_00000816496580927726_0,
  115_00001252365645148799_116_00010147607733229451_116_00002386058771553318_016_00002220097679275974_116_00013503487583143758_116_00003338886116348349_115_00001224744871391589_0,
  116_00012023696115211493_116_00009473598877173782_016_00003136179543388396_117_00030966846025845146_116_00013032167147669695_116_00003338886116348349_115_00001224744871391589_0,
  115_00001252365645148799_116_00009473598877173782_116_00018450752051383759_016_00022383743691614786_115_00001256084671219563_116_00003338886116348349_015_00000816496580927726_0,
  115_00001252365645148799_116_00009473598877173782_016_00003191959728387807_117_00028960513089293993_116_00012246633088546255_116_00003338886116348349_015_00000816496580927726_0,
  115_00001252365645148799_116_00010147607733229451_116_00005175068021523881_016_00001919147738793301_116_00011932419464896877_116_00003338886116348349_015_00000816496580927726_0,
  116_00012023696115211493_116_00010147607733229451_116_00004059464321535655_118_00028781849141293357_116_00011618205841247502_116_00003338886116348349_115_00001224744871391589_0,
  116_00012023696115211493_116_00010147607733229451_016_00017248566348239442_116_00016338481983821946_115_00001114688540577344_116_00003338886116348349_115_00001224744871391589_0,
  115_00001252365645148799_116_00010147607733229451_117_00030554209915462527_016_00004728013849964882_116_00010675564970299374_116_00003338886116348349_115_00001224744871391589_0,
  116_00013023616787764485_115_00001149562544534041_117_00025533993265515514_017_00012169312110004112_115_00001020424453482531_116_00003338886116348349_015_00000816496580927726_0,
  116_00013523577124040698_115_00001149562544534041_117_00019398172915580278_116_00003698584483549854_116_00009890030911175934_116_00003338886116348349_015_00000816496580927726_0,
  116_00013523577124040698_115_00001149562544534041_118_00004329100157804543_117_00014916182533436123_116_00009575817287526558_116_00003338886116348349_015_00000816496580927726_0,
  116_00013023616787764485_116_00010821616589285121_116_00011031987446462062_016_00012251762362031606_116_00009261603663877183_116_00003338886116348349_015_00000816496580927726_0,
  116_00013023616787764485_115_00001149562544534041_118_00021063155657627917_116_00005403967479618307_116_00008947390040227806_116_00003338886116348349_115_00001224744871391589_0,
  116_00013023616787764485_116_00010147607733229451_116_00008354538566490322_117_00007894017255507152_116_00008476069604753742_116_00003338886116348349_015_00000816496580927726_0,
  115_00001252365645148799_116_00010147607733229451_116_00008131417826492676_015_00000663403013968845_116_00008161855981104366_016_00029950108064592316_115_00001224744871391589_0,
  116_00013023616787764485_116_00010147607733229451_116_00007796736716496209_015_00002158121051699434_116_00007376321921980926_116_00003338886116348349_015_00000816496580927726_1,
  116_00013023616787764485_116_00010147607733229451_117_00038921237665374214_016_00005129280437275106_115_00000706210829833155_016_00029950108064592316_115_00001224744871391589_0,
  116_00013023616787764485_116_00010821616589285121_017_00024110371383960497_117_00027957346621018414_115_00000627657423920811_116_00003338886116348349_015_00000816496580927726_0,
  115_00001252365645148799_116_00009473598877173782_016_00014180656173271824_116_00013328982578995259_116_00005962360615558734_116_00003338886116348349_015_00000816496580927726_0,
  115_00001252365645148799_116_00009473598877173782_116_00004840386911527413_117_00009900350192058306_116_00005648146991909357_116_00003338886116348349_015_00000816496580927726_0,
  116_00012023696115211493_116_00008799590021118496_116_00009079680971482668_016_00019976144167753438_116_00005333933368259982_116_00003338886116348349_115_00001224744871391589_0,
  115_00001252365645148799_116_00009473598877173782_016_00000737631588413712_015_00000492864714361999_117_00048626129327859174_116_00003338886116348349_015_00000816496580927726_0,
  116_00012023696115211493_116_00008799590021118496_014_00000046422445383725_117_00020935181343089515_117_00045483993091365416_116_00003338886116348349_015_00000816496580927726_0,
  116_00012023696115211493_116_00008799590021118496_116_00006681133016507984_017_00017185144451381926_117_00042341856854871657_116_00003338886116348349_115_00001224744871391589_0,
  115_00001252365645148799_116_00009473598877173782_116_00005509749131520348_016_00006132446905550669_117_00037628652500131016_016_00029950108064592316_115_00001224744871391589_0,
  116_00013023616787764485_116_00009473598877173782_016_00005813628423360135_116_00009015366765410335_117_00029773311908896616_116_00003338886116348349_115_00001224744871391589_0,
  116_00013023616787764485_116_00008799590021118496_117_00016051361815615603_117_00037989011303774045_117_00025060107554155975_116_00003338886116348349_015_00000816496580927726_0,
  116_00013023616787764485_116_00008799590021118496_116_00003947903951536833_015_00000663403013968845_117_00021917971317662216_116_00003338886116348349_015_00000816496580927726_0,
  116_00013023616787764485_116_00008799590021118496_116_00006123331166513871_015_00001746822799706453_117_00018775835081168454_116_00003338886116348349_015_00000816496580927726_0,
  116_00013523577124040698_116_00008799590021118496_115_00000339010210154272_016_00007637196607964014_117_00015633698844674693_016_00029950108064592316_115_00001224744871391589_0,
  116_00013023616787764485_116_00009473598877173782_116_00014657699471423793_016_00013656195417617392_117_00007778358253440293_116_00003338886116348349_015_00000816496580927726_0,
  116_00013523577124040698_116_00009473598877173782_117_00029438606215474306_016_00002621364266586198_118_00046362220169465326_116_00003338886116348349_015_00000816496580927726_0,
  116_00013023616787764485_116_00009473598877173782_116_00003501662471541543_017_00023204143261035248_118_00014940857804527726_116_00003338886116348349_015_00000816496580927726_0,
  116_00013523577124040698_116_00009473598877173782_116_00006011770796515049_017_00020194643856208588_018_00016480504560409875_016_00029950108064592316_115_00001224744871391589_0,
  116_00013023616787764485_116_00008799590021118496_116_00007629396161497976_018_00021376474272484798_017_00009503391047275388_116_00003338886116348349_015_00000816496580927726_0,
  116_00013023616787764485_116_00008799590021118496_116_00005900210426516227_016_00003423897441206646_017_00012645527283769148_116_00003338886116348349_015_00000816496580927726_0,
  116_00013023616787764485_116_00008799590021118496_015_00007447903615763538_116_00035900228115195425_016_00001578766352026291_116_00003338886116348349_015_00000816496580927726_1,
  116_00013523577124040698_116_00009473598877173782_117_00015493559965621492_117_00043004843645151863_017_00018929799756756668_116_00003338886116348349_015_00000816496580927726_0,
  116_00013523577124040698_116_00009473598877173782_116_00004617266171529768_016_00002922314207068864_016_00002207193599325043_116_00003338886116348349_115_00001224744871391589_0,
  116_00014023537460317193_116_00010147607733229451_017_00006260712184148895_017_00015178811514830773_016_00002678514034799107_116_00003338886116348349_015_00000816496580927726_0,
  116_00014023537460317193_116_00010147607733229451_014_00000358791481380428_113_00000023561280555406_016_00002992727658448483_116_00003338886116348349_015_00000816496580927726_0,
  116_00013523577124040698_116_00008799590021118496_016_00004474903983374266_116_00008413466884444997_016_00003306941282097859_116_00003338886116348349_015_00000816496580927726_0,
  116_00013523577124040698_116_00008125581165062826_016_00002634157878393695_116_00007309983769341876_017_00036211549057472353_116_00003338886116348349_115_00001224744871391589_0,
  116_00013523577124040698_116_00008125581165062826_117_00022187182165550842_017_00042264306158271003_016_00004092475341221299_016_00029950108064592316_115_00001224744871391589_0,
  116_00013523577124040698_116_00008125581165062826_116_00006681133016507984_017_00024207309729310825_017_00048780094003447394_016_00029950108064592316_115_00001224744871391589_0,
  116_00013023616787764485_115_00000677756345295187_117_00023302785865539066_017_00018188310919657433_016_00005663543459468179_116_00003338886116348349_115_00001224744871391589_0,
  116_00013023616787764485_115_00000677756345295187_117_00010473343315674478_117_00029963679557569567_016_00006134863894942243_116_00003338886116348349_115_00001224744871391589_0,
  116_00013023616787764485_114_00000061035545968962_115_00000339010210154272_016_00009844162838170248_016_00006606184330416307_116_00003338886116348349_015_00000816496580927726_0,
  116_00013023616787764485_114_00000061035545968962_116_00008856560231485022_017_00011166145641728534_016_00006920397954065683_116_00003338886116348349_015_00000816496580927726_0,
  116_00013023616787764485_115_00000677756345295187_017_00017416749184031147_117_00020935181343089515_015_00000723461157771506_116_00003338886116348349_015_00000816496580927726_0,
  116_00013023616787764485_115_00000677756345295187_116_00003947903951536833_017_00014175645046555194_016_00007548825201364435_016_00029950108064592316_115_00001224744871391589_0,
  116_00013023616787764485_115_00000677756345295187_016_00016411863573248273_116_00017441965098925065_016_00008334359260487876_116_00003338886116348349_015_00000816496580927726_0,
  116_00013023616787764485_116_00007451572309007539_116_00012036030776451463_015_00001736791135023697_016_00008648572884137251_116_00003338886116348349_115_00001224744871391589_0,
  116_00013023616787764485_115_00000677756345295187_017_00024668173233954607_116_00008012200297134773_016_00009119893319611315_116_00003338886116348349_015_00000816496580927726_0,
  116_00013523577124040698_115_00000677756345295187_016_00000960752328411357_117_00004884517850680491_016_00009434106943260692_116_00003338886116348349_115_00001224744871391589_0,
  116_00013523577124040698_115_00000677756345295187_017_00005145108484160671_116_00002595101368446733_016_00009905427378734756_116_00003338886116348349_015_00000816496580927726_0,
  116_00013023616787764485_115_00000677756345295187_116_00011980250591452053_016_00016966644762926748_016_00010219641002384132_116_00003338886116348349_015_00000816496580927726_0,
  116_00013023616787764485_115_00000677756345295187_016_00001630114548404292_116_00006306817301066312_016_00010533854626033508_116_00003338886116348349_015_00000816496580927726_0,
  116_00013023616787764485_115_00000677756345295187_016_00008156396193335408_116_00009316316705893005_016_00010848068249682883_116_00003338886116348349_115_00001224744871391589_0,
  116_00013023616787764485_114_00000061035545968962_017_00024110371383960497_117_00040998510708600777_016_00011319388685156948_116_00003338886116348349_115_00001224744871391589_0,
  116_00013023616787764485_114_00000061035545968962_116_00004226804876533889_116_00005002700892308083_015_00001179070912063101_116_00003338886116348349_115_00001224744871391589_0,
  116_00013023616787764485_116_00005429545740840913_016_00002522597508394872_017_00028219975602413067_016_00012262029556105076_116_00003338886116348349_015_00000816496580927726_0,
  115_00001252365645148799_116_00005429545740840913_116_00010697306336465593_016_00015863161647823627_016_00012576243179754452_116_00003338886116348349_115_00001224744871391589_0,
  116_00013023616787764485_116_00005429545740840913_117_00044499256165315343_117_00020935181343089515_016_00013047563615228517_116_00003338886116348349_015_00000816496580927726_0,
  116_00013023616787764485_116_00005429545740840913_116_00006625352831508573_016_00005630863671412888_016_00013361777238877892_116_00003338886116348349_015_00000816496580927726_0,
  115_00001252365645148799_117_00047555368847852436_116_00007517835791499152_016_00003524214088034203_016_00013675990862527267_116_00003338886116348349_015_00000816496580927726_0,
  115_00001252365645148799_117_00047555368847852436_117_00038363435815380104_116_00001190668312860946_016_00013990204486176645_116_00003338886116348349_015_00000816496580927726_0,
  116_00012023696115211493_116_00004081528028729957_115_00001186869022145323_016_00009844162838170248_015_00001430441810982602_116_00003338886116348349_015_00000816496580927726_0,
  115_00001252365645148799_117_00047555368847852436_117_00044499256165315343_016_00009743846191342698_016_00014618631733475396_016_00029950108064592316_115_00001224744871391589_0,
  115_00001252365645148799_116_00005429545740840913_117_00004895324815733354_019_00013131449069732513_016_00015404165792598836_116_00003338886116348349_115_00001224744871391589_0,
  116_00013023616787764485_115_00000677756345295187_117_00018840371065586167_117_00007894017255507152_014_00000158754862280729_116_00003338886116348349_015_00000816496580927726_0,
  115_00001252365645148799_114_00000061035545968962_016_00004028662503378976_116_00009817899940030786_016_00016189699851722277_116_00003338886116348349_015_00000816496580927726_0,
  115_00001252365645148799_114_00000061035545968962_117_00013262352565645041_117_00049023842454805255_016_00016503913475371652_116_00003338886116348349_015_00000816496580927726_0]

/-- lr/data.csv 502-601 -/
def dataCsv5 : List ℕ := [
  115_00001252365645148799_116_00005429545740840913_016_00014794238208265347_116_00012626766051202365_016_00016818127099021027_116_00003338886116348349_115_00001224744871391589_0,
  116_00012023696115211493_117_00047555368847852436_116_00004171024691534478_016_00006232763552378227_016_00017289447534495093_116_00003338886116348349_115_00001224744871391589_0,
  116_00012023696115211493_116_00005429545740840913_115_00000829875838149091_016_00003323580794379088_016_00017760767969969156_116_00003338886116348349_015_00000816496580927726_0,
  116_00012023696115211493_116_00005429545740840913_116_00005398188761521525_016_00008138779842101795_116_00016959837443286896_116_00003338886116348349_115_00001224744871391589_0,
  116_00012023696115211493_117_00047555368847852436_117_00005453126665727467_016_00001919147738793301_115_00001648851700781283_116_00003338886116348349_115_00001224744871391589_0,
  116_00012023696115211493_117_00047555368847852436_016_00003972882318379565_116_00005002700892308083_116_00016017196572338768_116_00003338886116348349_015_00000816496580927726_0,
  116_00012023696115211493_117_00047555368847852436_018_00023560992341901083_115_00000570491742010098_115_00001570298294868939_116_00003338886116348349_015_00000816496580927726_0,
  116_00011023775442658785_116_00004081528028729957_116_00005230848206523292_016_00008239096488929353_116_00015388769325040015_016_00029950108064592316_115_00001224744871391589_0,
  116_00011523735778935282_117_00047555368847852436_016_00019758674673212948_116_00015435632162373938_116_00014603235265916574_116_00003338886116348349_015_00000816496580927726_0,
  116_00012023696115211493_117_00047555368847852436_115_00000690425375650563_017_00013172478578279617_114_00000142890216422672_116_00003338886116348349_115_00001224744871391589_0,
  115_00001252365645148799_117_00047555368847852436_017_00014069938084066472_117_00024947847216191754_116_00013817701206793134_116_00003338886116348349_015_00000816496580927726_0,
  115_00001252365645148799_117_00047555368847852436_116_00003334321916543309_117_00005887684318956068_116_00013503487583143758_116_00003338886116348349_015_00000816496580927726_0,
  115_00001252365645148799_116_00005429545740840913_116_00006290671721512106_016_00004828330496792433_116_00013189273959494383_116_00003338886116348349_015_00000816496580927726_0,
  116_00013023616787764485_116_00005429545740840913_116_00006179111351513282_116_00001190668312860946_116_00012875060335845006_116_00003338886116348349_015_00000816496580927726_0,
  116_00013023616787764485_116_00005429545740840913_016_00004530684168373677_116_00006808400535204094_115_00001256084671219563_116_00003338886116348349_015_00000816496580927726_0,
  115_00001252365645148799_116_00005429545740840913_016_00009829801743317745_116_00012024866170237025_116_00012246633088546255_116_00003338886116348349_015_00000816496580927726_0,
  115_00001252365645148799_117_00047555368847852436_016_00010778064888307737_116_00010118849880513456_116_00011932419464896877_116_00003338886116348349_015_00000816496580927726_0,
  115_00001252365645148799_116_00004081528028729957_116_00008242978196491499_016_00018270761171684984_116_00011618205841247502_116_00003338886116348349_115_00001224744871391589_0,
  116_00012023696115211493_116_00003407519172674287_014_00000214878604081947_115_00001944829803547619_115_00001114688540577344_116_00003338886116348349_015_00000816496580927726_0,
  116_00011523735778935282_116_00003407519172674287_016_00027233219463134057_115_00002025083121009664_116_00010832671782124061_116_00003338886116348349_115_00001224744871391589_0,
  116_00012023696115211493_116_00003407519172674287_017_00043633436133754433_117_00037989011303774045_116_00010361351346649998_116_00003338886116348349_015_00000816496580927726_0,
  115_00001252365645148799_116_00004081528028729957_117_00023302785865539066_117_00042001677176876356_116_00010047137723000623_116_00003338886116348349_015_00000816496580927726_0,
  115_00001252365645148799_116_00003407519172674287_116_00005063507651525058_016_00003724847381689319_116_00009732924099351247_116_00003338886116348349_115_00001224744871391589_0,
  116_00013023616787764485_116_00004081528028729957_116_00007685176346497387_016_00005931813611895553_116_00009261603663877183_116_00003338886116348349_015_00000816496580927726_0,
  116_00013023616787764485_116_00004081528028729957_016_00004530684168373677_117_00046014343049978595_116_00008947390040227806_116_00003338886116348349_015_00000816496580927726_0,
  116_00013023616787764485_116_00004081528028729957_116_00004059464321535655_016_00005530547024585329_115_00000863317641657843_116_00003338886116348349_015_00000816496580927726_0,
  116_00012023696115211493_116_00003407519172674287_116_00009247021526480902_016_00010646696012790704_116_00008318962792929054_116_00003338886116348349_015_00000816496580927726_0,
  116_00012023696115211493_117_00027335103166186175_016_00002968838988390162_117_00042001677176876356_116_00008004749169279678_116_00003338886116348349_115_00001224744871391589_0,
  115_00001252365645148799_116_00003407519172674287_017_00007934117734131232_017_00024207309729310825_116_00007533428733805614_116_00003338886116348349_115_00001224744871391589_0,
  116_00012023696115211493_116_00003407519172674287_017_00016858947334037033_117_00037989011303774045_115_00000706210829833155_116_00003338886116348349_015_00000816496580927726_0,
  116_00012023696115211493_116_00003407519172674287_016_00009495120633321278_116_00007811567003479657_116_00006747894674682174_116_00003338886116348349_115_00001224744871391589_0,
  116_00012023696115211493_116_00003407519172674287_017_00005702910334154783_116_00005103017539135641_115_00000627657423920811_116_00003338886116348349_015_00000816496580927726_0,
  115_00001252365645148799_116_00004081528028729957_116_00005342408576522114_016_00005430230377757772_116_00005962360615558734_116_00003338886116348349_015_00000816496580927726_0,
  115_00001252365645148799_117_00047555368847852436_016_00007598594343341296_115_00001021916652734101_116_00005648146991909357_116_00003338886116348349_015_00000816496580927726_0,
  115_00001252365645148799_117_00047555368847852436_016_00004698024723371911_116_00006607767241548985_116_00005333933368259982_116_00003338886116348349_015_00000816496580927726_0,
  116_00013023616787764485_117_00047555368847852436_116_00009693263006476192_016_00012452395655686714_116_00005019719744610606_016_00029950108064592316_115_00001224744871391589_0,
  116_00013023616787764485_117_00047555368847852436_015_00001228412988329184_116_00015234998868718825_117_00042341856854871657_116_00003338886116348349_015_00000816496580927726_0,
  116_00013023616787764485_117_00047555368847852436_117_00012704550715650928_016_00003022630853896422_115_00000391997206183779_016_00029950108064592316_115_00001224744871391589_0,
  116_00013023616787764485_117_00047555368847852436_117_00022187182165550842_117_00031970012494120725_115_00000313443800271435_116_00003338886116348349_115_00001224744871391589_0,
  116_00013023616787764485_117_00047555368847852436_015_00001317661284328242_116_00014231832400443263_117_00026631175672402857_116_00003338886116348349_115_00001224744871391589_0,
  116_00013023616787764485_116_00004081528028729957_117_00036690030265397766_016_00005530547024585329_117_00021917971317662216_116_00003338886116348349_015_00000816496580927726_0,
  116_00013023616787764485_116_00004081528028729957_116_00013542095771435567_016_00012352079008859156_117_00018775835081168454_116_00003338886116348349_015_00000816496580927726_0,
  115_00001252365645148799_116_00004081528028729957_016_00014738458023265935_116_00015335315515546384_117_00015633698844674693_116_00003338886116348349_015_00000816496580927726_0,
  115_00001252365645148799_117_00047555368847852436_017_00013512136234072358_117_00038992177772049624_117_00012491562608180934_016_00029950108064592316_115_00001224744871391589_0,
  115_00001252365645148799_116_00004081528028729957_015_00001630030320324945_116_00013429299225822813_118_00046362220169465326_116_00003338886116348349_115_00001224744871391589_0,
  116_00012023696115211493_116_00004081528028729957_016_00023384386698174677_116_00017943548333062846_019_00007698233779410749_116_00003338886116348349_015_00000816496580927726_0,
  115_00001252365645148799_116_00004081528028729957_016_00015073139133262403_116_00015736582102856609_017_00003219118574287868_116_00003338886116348349_015_00000816496580927726_0,
  115_00001252365645148799_116_00004081528028729957_117_00031669813615450754_117_00006890850787231645_017_00006361254810781627_116_00003338886116348349_115_00001224744871391589_0,
  116_00013023616787764485_117_00047555368847852436_116_00011534009111456762_016_00013254928830307169_017_00011074459165522269_116_00003338886116348349_015_00000816496580927726_0,
  116_00013023616787764485_116_00005429545740840913_116_00005677089686518582_017_00004143980363799563_016_00001421659540201603_116_00003338886116348349_015_00000816496580927726_0,
  116_00013023616787764485_116_00005429545740840913_016_00008881538598327754_116_00010620433114651238_016_00001735873163850979_116_00003338886116348349_015_00000816496580927726_0,
  116_00013023616787764485_116_00005429545740840913_116_00014769259841422615_016_00014358411945410283_016_00002050086787500355_116_00003338886116348349_015_00000816496580927726_0,
  116_00013023616787764485_117_00047555368847852436_014_00000046422445383725_116_00005002700892308083_016_00002364300411149731_116_00003338886116348349_115_00001224744871391589_0,
  116_00013023616787764485_117_00047555368847852436_017_00014069938084066472_115_00000399953442403252_016_00002835620846623795_116_00003338886116348349_115_00001224744871391589_0,
  115_00001252365645148799_116_00004081528028729957_116_00009525922451477957_016_00005329913730930215_016_00003306941282097859_016_00029950108064592316_115_00001224744871391589_0,
  116_00013023616787764485_116_00004081528028729957_019_00012489183421365824_016_00002220097679275974_016_00004092475341221299_116_00003338886116348349_115_00001224744871391589_0,
  115_00001252365645148799_116_00004081528028729957_116_00010139504486471482_015_00001014511277865292_016_00004563795776695363_116_00003338886116348349_015_00000816496580927726_0,
  115_00001252365645148799_116_00004081528028729957_116_00005900210426516227_016_00008339413135756903_017_00048780094003447394_116_00003338886116348349_115_00001224744871391589_0,
  115_00001252365645148799_116_00004081528028729957_016_00006204089718356014_116_00005403967479618307_016_00005349329835818804_116_00003338886116348349_015_00000816496580927726_0,
  115_00001252365645148799_116_00004081528028729957_116_00001995597476557439_017_00006150313300350718_016_00005663543459468179_116_00003338886116348349_015_00000816496580927726_0,
  115_00001252365645148799_116_00004081528028729957_115_00001231493170144852_016_00018270761171684984_016_00005977757083117555_116_00003338886116348349_015_00000816496580927726_0,
  115_00001252365645148799_116_00004081528028729957_016_00007765934898339529_116_00005604600773273423_016_00006291970706766932_116_00003338886116348349_115_00001224744871391589_0,
  116_00012023696115211493_116_00003407519172674287_017_00019647956584007595_116_00009115683412237894_016_00006763291142240996_116_00003338886116348349_015_00000816496580927726_0,
  116_00011523735778935282_117_00027335103166186175_117_00005453126665727467_117_00048020675986529676_016_00007077504765890371_116_00003338886116348349_015_00000816496580927726_0,
  116_00012023696115211493_117_00027335103166186175_016_00007263913233344829_116_00007911883650307214_016_00007391718389539748_016_00029950108064592316_115_00001224744871391589_0,
  116_00011523735778935282_117_00020595014605633308_017_00017416749184031147_117_00042001677176876356_016_00008177252448663187_016_00029950108064592316_115_00001224744871391589_0,
  116_00012023696115211493_117_00020595014605633308_018_00012404955342018832_116_00006306817301066312_016_00008962786507786628_116_00003338886116348349_115_00001224744871391589_0,
  116_00011523735778935282_117_00020595014605633308_016_00007877495268338351_116_00009817899940030786_016_00009434106943260692_116_00003338886116348349_115_00001224744871391589_0,
  116_00011023775442658785_117_00020595014605633308_015_00002210144244318822_116_00017943548333062846_016_00009905427378734756_116_00003338886116348349_015_00000816496580927726_0,
  116_00011523735778935282_117_00027335103166186175_016_00003191959728387807_117_00048020675986529676_016_00010219641002384132_116_00003338886116348349_115_00001224744871391589_0,
  116_00011523735778935282_117_00020595014605633308_117_00022744984015544953_017_00010162979173452956_016_00010690961437858195_116_00003338886116348349_015_00000816496580927726_0,
  116_00011023775442658785_116_00001385492604507661_016_00007654374528340707_116_00011021699701961463_016_00011005175061507573_116_00003338886116348349_115_00001224744871391589_0,
  116_00011023775442658785_117_00007114837484523745_116_00010474185596467949_016_00009041629663549801_016_00011476495496981636_116_00003338886116348349_015_00000816496580927726_0,
  116_00010523815106382575_117_00007114837484523745_117_00037247832115391877_016_00005028963790447548_015_00001179070912063101_116_00003338886116348349_015_00000816496580927726_0,
  116_00010523815106382575_118_00003747489239670474_115_00000556552931651976_017_00017185144451381926_016_00012104922744280389_116_00003338886116348349_115_00001224744871391589_0,
  116_00010523815106382575_117_00007114837484523745_116_00007183154681502685_016_00015461895060513404_016_00012576243179754452_116_00003338886116348349_115_00001224744871391589_0,
  116_00011523735778935282_117_00020595014605633308_116_00005509749131520348_016_00011148279246928485_016_00013047563615228517_016_00029950108064592316_115_00001224744871391589_0,
  116_00011523735778935282_117_00020595014605633308_017_00029130588033907506_117_00022941514279640599_016_00013833097674351955_116_00003338886116348349_015_00000816496580927726_0,
  116_00011023775442658785_116_00001385492604507661_118_00032219192657510165_117_00031970012494120725_016_00014147311298001333_116_00003338886116348349_015_00000816496580927726_0,
  116_00011023775442658785_117_00020595014605633308_016_00008993098968326577_116_00008714416824927665_016_00014461524921650708_116_00003338886116348349_115_00001224744871391589_0,
  116_00011023775442658785_116_00001385492604507661_015_00001445955709826888_116_00014532782340925934_016_00014932845357124773_116_00003338886116348349_115_00001224744871391589_0,
  116_00011023775442658785_117_00020595014605633308_116_00008075637641493265_016_00002922314207068864_016_00015404165792598836_116_00003338886116348349_015_00000816496580927726_0,
  116_00011023775442658785_117_00020595014605633308_116_00011031987446462062_016_00009242262957204916_016_00015718379416248212_116_00003338886116348349_015_00000816496580927726_0,
  116_00011523735778935282_117_00027335103166186175_016_00008825758413328343_116_00007811567003479657_015_00001603259303989759_016_00029950108064592316_115_00001224744871391589_0,
  116_00012023696115211493_117_00027335103166186175_116_00006681133016507984_016_00008239096488929353_016_00016818127099021027_016_00029950108064592316_115_00001224744871391589_0,
  116_00012023696115211493_116_00003407519172674287_016_00025782934653149363_116_00019548614682303749_016_00017603661158144468_116_00003338886116348349_015_00000816496580927726_0,
  116_00012023696115211493_117_00027335103166186175_117_00021071578465562615_016_00009844162838170248_016_00017917874781793846_116_00003338886116348349_015_00000816496580927726_1,
  116_00012023696115211493_116_00003407519172674287_016_00004698024723371911_116_00006908717182031652_015_00001823208840544322_016_00029950108064592316_115_00001224744871391589_0,
  116_00012023696115211493_116_00004081528028729957_016_00004976925648368967_116_00006607767241548985_016_00019017622464566661_116_00003338886116348349_015_00000816496580927726_0,
  116_00012023696115211493_116_00004081528028729957_116_00002664959696550374_018_00021376474272484798_016_00019331836088216037_116_00003338886116348349_015_00000816496580927726_0,
  115_00001252365645148799_116_00004081528028729957_117_00012146748865656816_117_00032973178962396227_016_00019646049711865412_116_00003338886116348349_015_00000816496580927726_0,
  115_00001252365645148799_117_00047555368847852436_117_00007684334065703917_017_00017185144451381926_015_00001996026333551479_016_00029950108064592316_115_00001224744871391589_0,
  115_00001252365645148799_116_00003407519172674287_016_00007208133048345416_116_00012125182817064584_015_00002074579739463823_016_00029950108064592316_115_00001224744871391589_0,
  115_00001252365645148799_117_00027335103166186175_116_00012649612811444988_015_00001074701265961826_116_00016959837443286896_116_00003338886116348349_015_00000816496580927726_0,
  116_00012023696115211493_117_00027335103166186175_115_00001454613910142497_016_00010446062719135587_116_00016645623819637518_016_00029950108064592316_115_00001224744871391589_0,
  116_00012023696115211493_117_00027335103166186175_116_00011645569481455584_015_00001315461218347961_116_00015860089760514078_116_00003338886116348349_115_00001224744871391589_0,
  116_00012023696115211493_117_00027335103166186175_117_00004895324815733354_117_00026954180152742907_116_00015388769325040015_116_00003338886116348349_115_00001224744871391589_0,
  116_00012023696115211493_117_00027335103166186175_116_00006179111351513282_015_00000663403013968845_115_00001491744888956595_016_00029950108064592316_115_00001224744871391589_0,
  116_00011523735778935282_117_00027335103166186175_116_00003278541731543898_015_00000793814654844668_116_00014131914830442511_116_00003338886116348349_015_00000816496580927726_0,
  116_00011523735778935282_117_00020595014605633308_016_00004307563428376032_116_00008915050118582778_116_00013817701206793134_016_00029950108064592316_115_00001224744871391589_0]

/-- lr/data.csv 602-701 -/
def dataCsv6 : List ℕ := [
  116_00011023775442658785_117_00020595014605633308_017_00004587306634166558_117_00026954180152742907_116_00013032167147669695_116_00003338886116348349_015_00000816496580927726_0,
  116_00010523815106382575_117_00020595014605633308_016_00036548510358035733_116_00023260330614923332_116_00012717953524020318_116_00003338886116348349_015_00000816496580927726_0,
  116_00010523815106382575_116_00001385492604507661_016_00025727154468149953_116_00018746081507683297_116_00012403739900370943_116_00003338886116348349_015_00000816496580927726_0,
  116_00010523815106382575_116_00001385492604507661_116_00011310888371459118_015_00003171319184657752_116_00012089526276721567_116_00003338886116348349_015_00000816496580927726_1,
  116_00010523815106382575_117_00007114837484523745_018_00017982973841959956_116_00006206500654238761_115_00001177531265307219_116_00003338886116348349_015_00000816496580927726_0,
  116_00010523815106382575_116_00001385492604507661_016_00008602637673330699_116_00010118849880513456_116_00011461099029422814_116_00003338886116348349_115_00001224744871391589_0,
  116_00010523815106382575_116_00001385492604507661_117_00043383652465327116_016_00010546379365963146_116_00010989778593948751_116_00003338886116348349_015_00000816496580927726_0,
  116_00010023854770106078_117_00007114837484523745_017_00014627739934060582_116_00006106184007411204_116_00010675564970299374_116_00003338886116348349_115_00001224744871391589_0,
  116_00010023854770106078_117_00007114837484523745_116_00007573615976498564_016_00007737513254791571_115_00001020424453482531_116_00003338886116348349_015_00000816496580927726_0,
  116_00009523894433829583_117_00007114837484523745_016_00005032705833368378_116_00007510617062996991_116_00009890030911175934_116_00003338886116348349_015_00000816496580927726_0,
  116_00009523894433829583_118_00003747489239670474_117_00002664117415756904_116_00006306817301066312_116_00009575817287526558_116_00003338886116348349_015_00000816496580927726_0,
  116_00009523894433829583_118_00003747489239670474_017_00007934117734131232_016_00000915981270517738_116_00009261603663877183_116_00003338886116348349_015_00000816496580927726_0,
  116_00009523894433829583_117_00007114837484523745_017_00013512136234072358_116_00007209667122514325_116_00008947390040227806_116_00003338886116348349_015_00000816496580927726_0,
  116_00009523894433829583_117_00007114837484523745_016_00005311606758365435_116_00010018533233685898_115_00000863317641657843_116_00003338886116348349_015_00000816496580927726_0,
  116_00010023854770106078_117_00007114837484523745_116_00005230848206523292_016_00005229597084102664_116_00008318962792929054_116_00003338886116348349_115_00001224744871391589_0,
  116_00009523894433829583_117_00007114837484523745_016_00005757848238360724_116_00009617266646375675_115_00000784764235745499_116_00003338886116348349_015_00000816496580927726_0,
  116_00009523894433829583_117_00007114837484523745_016_00008212176378334819_116_00010921383055133904_116_00007533428733805614_016_00029950108064592316_115_00001224744871391589_0,
  116_00009523894433829583_118_00003747489239670474_116_00008131417826492676_015_00000312294750072398_116_00006747894674682174_116_00003338886116348349_115_00001224744871391589_0,
  116_00009023934097553371_118_00003747489239670474_116_00005900210426516227_017_00042264306158271003_115_00000627657423920811_016_00029950108064592316_115_00001224744871391589_0,
  116_00008523973761276875_118_00003747489239670474_116_00001772476736559794_016_00004728013849964882_115_00000549104018008467_116_00003338886116348349_015_00000816496580927726_0,
  116_00008523973761276875_016_00000636533963658965_116_00008354538566490322_015_00000964352954451514_116_00005176826556435293_116_00003338886116348349_115_00001224744871391589_0,
  116_00008523973761276875_016_00000636533963658965_116_00007294715051501508_016_00005329913730930215_115_00000470550612096123_116_00003338886116348349_015_00000816496580927726_0,
  116_00008024013425000663_017_00013105428197142516_016_00010387603593311858_116_00008012200297134773_116_00004391292497311854_116_00003338886116348349_115_00001224744871391589_0,
  116_00008024013425000663_016_00000636533963658965_015_00002159942077819352_116_00016338481983821946_115_00000391997206183779_116_00003338886116348349_015_00000816496580927726_0,
  116_00008523973761276875_016_00000636533963658965_117_00016609163665609716_117_00023944680747916175_117_00036057584381884134_016_00029950108064592316_115_00001224744871391589_0,
  116_00008523973761276875_016_00000636533963658965_018_00034717029341783334_116_00003698584483549854_117_00028202243790649734_116_00003338886116348349_015_00000816496580927726_0,
  116_00008024013425000663_016_00000636533963658965_118_00032219192657510165_117_00048020675986529676_117_00025060107554155975_116_00003338886116348349_015_00000816496580927726_0,
  116_00008024013425000663_016_00000636533963658965_116_00004673046356529179_016_00002220097679275974_117_00021917971317662216_116_00003338886116348349_015_00000816496580927726_0,
  116_00008024013425000663_016_00000636533963658965_116_00011366668556458528_016_00017869494584374754_117_00018775835081168454_116_00003338886116348349_115_00001224744871391589_0,
  116_00008523973761276875_016_00000636533963658965_117_00008799937765692141_016_00005931813611895553_117_00014062630726427813_116_00003338886116348349_015_00000816496580927726_0,
  116_00008523973761276875_118_00003747489239670474_117_00043941454315321227_016_00007637196607964014_117_00010920494489934053_116_00003338886116348349_015_00000816496580927726_0,
  116_00008024013425000663_118_00003747489239670474_017_00008491919584125346_117_00026954180152742907_117_00007778358253440293_116_00003338886116348349_015_00000816496580927726_0,
  116_00008523973761276875_118_00003747489239670474_116_00006681133016507984_016_00007135613373826232_118_00046362220169465326_016_00029950108064592316_115_00001224744871391589_0,
  116_00008523973761276875_118_00003747489239670474_116_00005398188761521525_016_00003925480675344427_017_00003219118574287868_116_00003338886116348349_015_00000816496580927726_0,
  116_00008523973761276875_117_00007114837484523745_116_00001772476736559794_016_00001618197798310635_017_00006361254810781627_116_00003338886116348349_015_00000816496580927726_0,
  116_00008523973761276875_118_00003747489239670474_016_00017806368198233555_116_00016137848690166836_017_00009503391047275388_116_00003338886116348349_015_00000816496580927726_0,
  116_00008523973761276875_117_00007114837484523745_116_00004226804876533889_016_00003925480675344427_017_00012645527283769148_116_00003338886116348349_015_00000816496580927726_0,
  116_00009023934097553371_117_00020595014605633308_016_00002578377693394283_116_00002595101368446733_016_00001578766352026291_116_00003338886116348349_015_00000816496580927726_0,
  116_00010023854770106078_117_00027335103166186175_118_00015485137157686792_117_00026954180152742907_017_00018929799756756668_116_00003338886116348349_015_00000816496580927726_0,
  116_00010023854770106078_117_00027335103166186175_116_00007573615976498564_016_00011348912540583593_016_00002207193599325043_116_00003338886116348349_015_00000816496580927726_0,
  116_00010523815106382575_117_00027335103166186175_117_00013262352565645041_116_00001190668312860946_016_00002521407222974419_116_00003338886116348349_115_00001224744871391589_0,
  116_00010523815106382575_116_00003407519172674287_115_00000829875838149091_015_00000793814654844668_016_00002992727658448483_116_00003338886116348349_015_00000816496580927726_0,
  116_00011023775442658785_116_00004081528028729957_116_00017446708721394355_016_00018772344405822765_016_00003306941282097859_116_00003338886116348349_115_00001224744871391589_0,
  116_00011023775442658785_116_00004081528028729957_116_00002441838956552729_117_00034979511898947385_016_00003778261717571923_116_00003338886116348349_115_00001224744871391589_0,
  116_00011523735778935282_116_00004081528028729957_016_00003861321948380742_116_00009817899940030786_016_00004249582153045987_016_00029950108064592316_115_00001224744871391589_0,
  116_00011523735778935282_116_00004081528028729957_116_00008187198011492087_016_00004126113968999543_016_00005035116212169427_116_00003338886116348349_015_00000816496580927726_0,
  116_00011523735778935282_116_00004081528028729957_117_00043383652465327116_016_00003724847381689319_016_00005349329835818804_116_00003338886116348349_115_00001224744871391589_0,
  116_00011523735778935282_117_00047555368847852436_017_00011280928834095907_117_00030966846025845146_016_00005820650271292868_116_00003338886116348349_015_00000816496580927726_0,
  116_00011523735778935282_117_00047555368847852436_116_00007740956531496798_016_00008941313016722243_016_00006134863894942243_016_00029950108064592316_115_00001224744871391589_0,
  116_00011523735778935282_116_00005429545740840913_016_00010778064888307737_116_00011222332995616573_016_00006920397954065683_116_00003338886116348349_115_00001224744871391589_0,
  116_00012023696115211493_116_00005429545740840913_016_00004028662503378976_116_00006908717182031652_016_00007391718389539748_116_00003338886116348349_015_00000816496580927726_0,
  116_00012023696115211493_114_00000061035545968962_116_00001995597476557439_117_00010903516660333884_016_00007705932013189124_116_00003338886116348349_015_00000816496580927726_0,
  116_00011523735778935282_116_00005429545740840913_116_00008242978196491499_017_00045273805563097663_016_00008020145636838499_116_00003338886116348349_015_00000816496580927726_0,
  116_00011023775442658785_117_00047555368847852436_015_00002656385724314112_116_00019949881269613972_016_00008334359260487876_116_00003338886116348349_015_00000816496580927726_0,
  116_00011023775442658785_116_00005429545740840913_016_00008044835823336586_116_00009115683412237894_016_00008648572884137251_116_00003338886116348349_015_00000816496580927726_0,
  116_00011523735778935282_114_00000061035545968962_116_00005788650056517404_116_00001190668312860946_016_00008962786507786628_116_00003338886116348349_015_00000816496580927726_0,
  116_00011523735778935282_114_00000061035545968962_016_00010778064888307737_116_00011924549523409467_016_00009277000131436004_116_00003338886116348349_115_00001224744871391589_0,
  116_00011523735778935282_116_00005429545740840913_116_00009693263006476192_016_00018672027758995209_016_00009748320566910068_116_00003338886116348349_015_00000816496580927726_0,
  116_00011523735778935282_114_00000061035545968962_017_00012954334384078245_117_00031970012494120725_016_00010062534190559445_116_00003338886116348349_015_00000816496580927726_0,
  116_00012023696115211493_114_00000061035545968962_116_00005007727466525647_016_00009141946310377358_015_00001037674781420882_116_00003338886116348349_015_00000816496580927726_0,
  116_00011523735778935282_116_00005429545740840913_016_00008993098968326577_116_00012626766051202365_016_00010690961437858195_116_00003338886116348349_115_00001224744871391589_0,
  116_00012023696115211493_115_00000677756345295187_116_00006234891536512694_016_00005630863671412888_015_00001116228187333226_116_00003338886116348349_115_00001224744871391589_0,
  116_00012023696115211493_116_00007451572309007539_116_00003334321916543309_116_00001892884840653836_016_00011633602308806323_116_00003338886116348349_115_00001224744871391589_0,
  115_00001252365645148799_116_00007451572309007539_117_00038921237665374214_016_00004025797322171985_016_00012104922744280389_116_00003338886116348349_015_00000816496580927726_0,
  115_00001252365645148799_116_00007451572309007539_115_00000829875838149091_016_00007436563314308898_016_00012419136367929764_116_00003338886116348349_015_00000816496580927726_0,
  115_00001252365645148799_116_00007451572309007539_016_00010610724333309502_116_00011924549523409467_015_00001273334999157914_116_00003338886116348349_015_00000816496580927726_0,
  115_00001252365645148799_115_00000677756345295187_117_00038363435815380104_016_00003524214088034203_016_00013047563615228517_116_00003338886116348349_015_00000816496580927726_0,
  115_00001252365645148799_116_00007451572309007539_117_00044499256165315343_016_00008540046429412019_016_00013361777238877892_116_00003338886116348349_015_00000816496580927726_0,
  115_00001252365645148799_116_00007451572309007539_016_00011112745998304205_116_00016037532043339278_016_00013675990862527267_116_00003338886116348349_015_00000816496580927726_0,
  115_00001252365645148799_116_00007451572309007539_117_00037805633965385993_117_00022941514279640599_016_00013990204486176645_016_00029950108064592316_115_00001224744871391589_0,
  116_00012023696115211493_115_00000677756345295187_015_00001579828153825475_115_00001463309898775349_016_00014775738545300083_116_00003338886116348349_015_00000816496580927726_0,
  115_00001252365645148799_116_00007451572309007539_017_00008491919584125346_116_00005203334185963199_015_00001508995216894946_116_00003338886116348349_015_00000816496580927726_0,
  116_00012023696115211493_116_00007451572309007539_116_00005900210426516227_016_00003223264147551537_016_00015404165792598836_116_00003338886116348349_115_00001224744871391589_0,
  116_00012023696115211493_116_00007451572309007539_116_00005007727466525647_016_00007737513254791571_014_00000158754862280729_116_00003338886116348349_015_00000816496580927726_0,
  116_00011023775442658785_115_00000677756345295187_116_00004617266171529768_017_00012169312110004112_116_00016959837443286896_116_00003338886116348349_015_00000816496580927726_0,
  116_00011023775442658785_114_00000061035545968962_116_00006402232091510928_016_00005530547024585329_116_00016645623819637518_116_00003338886116348349_115_00001224744871391589_0,
  116_00010523815106382575_116_00005429545740840913_017_00021321362133989932_115_00000530365083279075_116_00016174303384163455_016_00029950108064592316_115_00001224744871391589_0,
  116_00010523815106382575_116_00005429545740840913_115_00000339010210154272_118_00028781849141293357_116_00015388769325040015_116_00003338886116348349_015_00000816496580927726_0,
  116_00011023775442658785_116_00005429545740840913_115_00001359787595643498_015_00002128026057651167_115_00001507455570139064_116_00003338886116348349_115_00001224744871391589_0,
  116_00011023775442658785_116_00005429545740840913_116_00009302801711480313_016_00007336246667481341_116_00014603235265916574_116_00003338886116348349_015_00000816496580927726_0,
  116_00011023775442658785_114_00000061035545968962_116_00005955990611515638_016_00002621364266586198_114_00000142890216422672_116_00003338886116348349_115_00001224744871391589_0,
  116_00011523735778935282_115_00000677756345295187_016_00006538770828352481_116_00006808400535204094_116_00013817701206793134_116_00003338886116348349_115_00001224744871391589_0,
  116_00011023775442658785_115_00000677756345295187_116_00007183154681502685_016_00008840996369894685_115_00001334638077131907_016_00029950108064592316_115_00001224744871391589_0,
  116_00011523735778935282_115_00000677756345295187_016_00018698851158224135_116_00015636265456029053_115_00001256084671219563_116_00003338886116348349_015_00000816496580927726_0,
  116_00011523735778935282_115_00000677756345295187_118_00004329100157804543_016_00003223264147551537_116_00012246633088546255_116_00003338886116348349_015_00000816496580927726_0,
  116_00011523735778935282_115_00000677756345295187_016_00005423167128364257_116_00010319483174168569_116_00011932419464896877_116_00003338886116348349_115_00001224744871391589_0,
  116_00011523735778935282_115_00000677756345295187_117_00019398172915580278_017_00004143980363799563_116_00011461099029422814_116_00003338886116348349_115_00001224744871391589_0,
  116_00011523735778935282_115_00000677756345295187_117_00004337522965739242_017_00024207309729310825_116_00010989778593948751_116_00003338886116348349_115_00001224744871391589_0,
  116_00012023696115211493_115_00000677756345295187_015_00001094540544330597_116_00013629932519477927_116_00010518458158474686_016_00029950108064592316_115_00001224744871391589_0,
  116_00012023696115211493_115_00000677756345295187_116_00010306845041469714_015_00001566252835416852_116_00009732924099351247_016_00029950108064592316_115_00001224744871391589_0,
  116_00012023696115211493_115_00000677756345295187_116_00007015814126504452_018_00021376474272484798_116_00008947390040227806_016_00029950108064592316_115_00001224744871391589_0,
  116_00011523735778935282_114_00000061035545968962_017_00013512136234072358_117_00006890850787231645_116_00008161855981104366_116_00003338886116348349_015_00000816496580927726_0,
  116_00011523735778935282_114_00000061035545968962_116_00003334321916543309_017_00021197810324484165_115_00000784764235745499_116_00003338886116348349_015_00000816496580927726_0,
  116_00011523735778935282_114_00000061035545968962_116_00003445882286542132_117_00016922515469987276_116_00007533428733805614_116_00003338886116348349_015_00000816496580927726_0,
  116_00012023696115211493_114_00000061035545968962_116_00008075637641493265_016_00010044796131825364_116_00007219215110156237_116_00003338886116348349_015_00000816496580927726_0,
  116_00012023696115211493_115_00000677756345295187_116_00002888080436548019_016_00005430230377757772_116_00006905001486506862_116_00003338886116348349_015_00000816496580927726_0,
  116_00012023696115211493_115_00000677756345295187_015_00001540782024325887_116_00014733415634581044_116_00006590787862857486_116_00003338886116348349_115_00001224744871391589_0,
  116_00012023696115211493_116_00008125581165062826_116_00004784606726528002_118_00028781849141293357_116_00006119467427383422_116_00003338886116348349_115_00001224744871391589_0,
  116_00012023696115211493_116_00008125581165062826_019_00012489183421365824_018_00021376474272484798_116_00005648146991909357_116_00003338886116348349_015_00000816496580927726_0,
  115_00001252365645148799_116_00008799590021118496_116_00006848473571506217_117_00007894017255507152_116_00005333933368259982_016_00029950108064592316_115_00001224744871391589_0]

/-- lr/data.csv 702-801 -/
def dataCsv7 : List ℕ := [
  116_00012023696115211493_116_00008125581165062826_016_00008044835823336586_116_00008413466884444997_117_00045483993091365416_116_00003338886116348349_115_00001224744871391589_0,
  116_00011523735778935282_116_00008125581165062826_117_00013262352565645041_018_00011344809589729025_117_00040770788736624775_116_00003338886116348349_015_00000816496580927726_0,
  116_00011523735778935282_116_00007451572309007539_117_00004337522965739242_016_00008339413135756903_117_00037628652500131016_116_00003338886116348349_115_00001224744871391589_0,
  116_00011523735778935282_116_00007451572309007539_116_00003334321916543309_016_00000915981270517738_117_00032915448145390375_016_00029950108064592316_115_00001224744871391589_0,
  116_00011523735778935282_116_00007451572309007539_117_00012704550715650928_116_00006306817301066312_117_00025060107554155975_116_00003338886116348349_015_00000816496580927726_0,
  116_00011523735778935282_115_00000677756345295187_116_00001772476736559794_117_00017925681938262783_117_00021917971317662216_116_00003338886116348349_015_00000816496580927726_0,
  116_00011023775442658785_115_00000677756345295187_116_00005844430241516816_016_00003323580794379088_117_00018775835081168454_116_00003338886116348349_115_00001224744871391589_0,
  116_00011523735778935282_116_00007451572309007539_015_00001669076449824533_115_00001272708269802992_117_00014062630726427813_116_00003338886116348349_015_00000816496580927726_0,
  116_00012023696115211493_116_00008125581165062826_116_00006848473571506217_016_00005931813611895553_117_00010920494489934053_116_00003338886116348349_115_00001224744871391589_0,
  116_00012023696115211493_116_00008125581165062826_116_00010139504486471482_016_00009743846191342698_118_00062072901351934134_116_00003338886116348349_115_00001224744871391589_0,
  115_00001252365645148799_116_00008799590021118496_016_00008825758413328343_116_00011924549523409467_118_00014940857804527726_116_00003338886116348349_115_00001224744871391589_0,
  115_00001252365645148799_116_00008799590021118496_116_00005342408576522114_016_00006232763552378227_017_00003219118574287868_116_00003338886116348349_015_00000816496580927726_0,
  115_00001252365645148799_116_00008799590021118496_116_00004784606726528002_117_00023944680747916175_017_00006361254810781627_116_00003338886116348349_015_00000816496580927726_0,
  116_00013023616787764485_116_00009473598877173782_115_00000556552931651976_016_00006433396846033335_017_00009503391047275388_116_00003338886116348349_015_00000816496580927726_0,
  116_00013023616787764485_116_00009473598877173782_016_00003917102133380153_117_00037989011303774045_017_00012645527283769148_116_00003338886116348349_015_00000816496580927726_0,
  116_00013023616787764485_116_00009473598877173782_116_00011980250591452053_015_00001917361099313299_016_00001578766352026291_116_00003338886116348349_015_00000816496580927726_0,
  116_00013023616787764485_116_00009473598877173782_116_00006625352831508573_016_00005831496965067996_017_00018929799756756668_016_00029950108064592316_115_00001224744871391589_0,
  116_00013023616787764485_116_00008799590021118496_018_00034717029341783334_117_00030966846025845146_016_00002678514034799107_116_00003338886116348349_015_00000816496580927726_0,
  115_00001252365645148799_116_00008125581165062826_116_00003445882286542132_117_00009900350192058306_016_00002992727658448483_116_00003338886116348349_015_00000816496580927726_0,
  116_00013023616787764485_116_00008125581165062826_116_00005119287836524469_016_00018170444524857428_016_00003306941282097859_116_00003338886116348349_015_00000816496580927726_0,
  116_00013023616787764485_116_00007451572309007539_016_00015073139133262403_115_00001623816533699439_017_00036211549057472353_116_00003338886116348349_015_00000816496580927726_0,
  115_00001252365645148799_116_00007451572309007539_016_00008769978228328932_116_00009115683412237894_016_00003935368529396611_116_00003338886116348349_015_00000816496580927726_0,
  115_00001252365645148799_116_00007451572309007539_116_00006234891536512694_016_00004728013849964882_016_00004249582153045987_116_00003338886116348349_015_00000816496580927726_0,
  116_00013023616787764485_116_00007451572309007539_116_00002162938031555673_016_00006333080199205777_016_00004563795776695363_116_00003338886116348349_115_00001224744871391589_0,
  115_00001252365645148799_116_00007451572309007539_115_00000829875838149091_016_00004627697203137324_016_00005035116212169427_116_00003338886116348349_015_00000816496580927726_0,
  116_00013023616787764485_116_00008125581165062826_016_00005646287868361902_116_00005805234066928531_016_00005349329835818804_116_00003338886116348349_015_00000816496580927726_0,
  116_00013023616787764485_116_00008125581165062826_016_00004976925648368967_116_00002595101368446733_016_00005663543459468179_116_00003338886116348349_115_00001224744871391589_0,
  116_00013523577124040698_116_00009473598877173782_117_00022187182165550842_117_00023944680747916175_016_00006134863894942243_016_00029950108064592316_115_00001224744871391589_0,
  116_00013023616787764485_116_00008799590021118496_116_00006346451906511517_015_00001034574607230803_016_00006920397954065683_116_00003338886116348349_115_00001224744871391589_0,
  116_00013523577124040698_116_00009473598877173782_016_00002634157878393695_117_00022941514279640599_016_00007391718389539748_116_00003338886116348349_015_00000816496580927726_0,
  116_00013523577124040698_116_00009473598877173782_117_00037805633965385993_015_00001074701265961826_016_00007705932013189124_116_00003338886116348349_115_00001224744871391589_0,
  116_00013523577124040698_116_00009473598877173782_116_00006011770796515049_016_00013054295536652054_016_00008177252448663187_116_00003338886116348349_115_00001224744871391589_0,
  116_00014023537460317193_116_00009473598877173782_014_00000214878604081947_116_00017943548333062846_016_00008648572884137251_116_00003338886116348349_015_00000816496580927726_0,
  116_00014523497796593405_116_00010821616589285121_116_00006569572646509162_017_00020194643856208588_016_00008962786507786628_116_00003338886116348349_115_00001224744871391589_0,
  114_00000150234581328699_116_00010821616589285121_116_00013040074106440867_016_00014659361885892956_016_00009434106943260692_016_00029950108064592316_115_00001224744871391589_0,
  116_00015523418469146397_116_00010821616589285121_017_00010165325134107683_116_00007610933709824549_016_00010219641002384132_116_00003338886116348349_015_00000816496580927726_0,
  116_00015523418469146397_115_00001149562544534041_017_00009049721434119458_117_00017925681938262783_016_00010533854626033508_116_00003338886116348349_015_00000816496580927726_0,
  116_00015523418469146397_115_00001149562544534041_117_00036132228415403655_117_00007894017255507152_016_00010848068249682883_016_00029950108064592316_115_00001224744871391589_0,
  116_00016023378805422608_115_00001149562544534041_117_00018282569215592054_016_00005931813611895553_016_00011633602308806323_116_00003338886116348349_015_00000816496580927726_0,
  116_00015523418469146397_116_00010821616589285121_115_00000829875838149091_017_00018188310919657433_014_00000119478159324557_116_00003338886116348349_015_00000816496580927726_0,
  116_00015523418469146397_116_00010821616589285121_117_00049519472815262355_016_00006934980080171117_016_00012262029556105076_116_00003338886116348349_115_00001224744871391589_0,
  116_00015523418469146397_115_00001149562544534041_117_00014377956265633265_116_00001190668312860946_015_00001273334999157914_116_00003338886116348349_015_00000816496580927726_0,
  116_00016023378805422608_115_00001216963430139608_016_00005813628423360135_115_00000530365083279075_016_00013047563615228517_116_00003338886116348349_015_00000816496580927726_0,
  116_00016023378805422608_115_00001216963430139608_116_00009916383746473837_016_00013856828711272502_016_00013361777238877892_116_00003338886116348349_015_00000816496580927726_0,
  116_00016523339141699105_116_00012843643157451365_117_00049519472815262355_016_00000915981270517738_016_00013675990862527267_116_00003338886116348349_015_00000816496580927726_0,
  116_00016523339141699105_116_00013517652013507035_116_00004896167096526824_015_00001074701265961826_016_00013990204486176645_116_00003338886116348349_015_00000816496580927726_0,
  116_00016023378805422608_116_00012843643157451365_116_00013932557066431446_015_00002208279375113212_015_00001430441810982602_116_00003338886116348349_015_00000816496580927726_1,
  116_00016023378805422608_116_00012843643157451365_116_00010195284671470892_016_00008339413135756903_016_00014618631733475396_116_00003338886116348349_015_00000816496580927726_0,
  116_00016523339141699105_116_00012843643157451365_118_00060109285157215794_016_00006333080199205777_016_00014932845357124773_016_00029950108064592316_115_00001224744871391589_0,
  116_00017023299477975316_116_00013517652013507035_016_00024499990398162903_116_00017742915039407734_016_00015718379416248212_116_00003338886116348349_015_00000816496580927726_0,
  116_00016523339141699105_116_00013517652013507035_118_00021063155657627917_117_00031970012494120725_015_00001603259303989759_116_00003338886116348349_015_00000816496580927726_0,
  116_00016023378805422608_116_00012843643157451365_016_00016969665423242386_116_00015836898749684165_016_00016346806663546964_116_00003338886116348349_115_00001224744871391589_0,
  116_00015523418469146397_116_00012843643157451365_115_00000651379246150975_016_00008740679723067134_016_00016818127099021027_116_00003338886116348349_015_00000816496580927726_0,
  116_00016023378805422608_116_00013517652013507035_118_00015485137157686792_017_00004143980363799563_016_00017132340722670405_116_00003338886116348349_015_00000816496580927726_0,
  116_00015523418469146397_116_00012843643157451365_117_00031112011765456643_016_00004326747262654651_015_00001744655434631978_116_00003338886116348349_115_00001224744871391589_0,
  116_00016023378805422608_116_00012843643157451365_116_00002609179511550963_016_00003724847381689319_016_00017917874781793846_016_00029950108064592316_115_00001224744871391589_0,
  116_00016023378805422608_116_00013517652013507035_016_00002522597508394872_017_00004143980363799563_016_00018703408840917284_116_00003338886116348349_015_00000816496580927726_0,
  116_00015523418469146397_116_00012843643157451365_017_00009049721434119458_116_00006306817301066312_016_00019017622464566661_116_00003338886116348349_015_00000816496580927726_0,
  116_00016023378805422608_116_00013517652013507035_117_00023302785865539066_017_00017185144451381926_016_00019331836088216037_116_00003338886116348349_015_00000816496580927726_0,
  116_00016523339141699105_116_00014865669725617991_118_00009907118657745668_116_00003698584483549854_016_00019646049711865412_116_00003338886116348349_115_00001224744871391589_0,
  116_00016523339141699105_116_00014865669725617991_117_00018840371065586167_117_00005887684318956068_016_00020117370147339475_116_00003338886116348349_015_00000816496580927726_0,
  116_00016523339141699105_116_00014865669725617991_015_00000598096897835837_116_00005403967479618307_016_00020431583770988855_116_00003338886116348349_015_00000816496580927726_0,
  116_00016523339141699105_116_00014865669725617991_115_00001409989762142968_016_00020578044048718778_116_00016959837443286896_116_00003338886116348349_115_00001224744871391589_0,
  116_00016523339141699105_116_00014865669725617991_116_00007740956531496798_016_00007536879961136456_115_00001648851700781283_116_00003338886116348349_015_00000816496580927726_0,
  116_00016023378805422608_116_00014191660869562706_116_00011255108186459706_016_00016565378175616523_116_00016174303384163455_116_00003338886116348349_015_00000816496580927726_0,
  116_00015523418469146397_116_00013517652013507035_116_00011534009111456762_016_00013957145358100058_116_00015860089760514078_116_00003338886116348349_015_00000816496580927726_0,
  116_00016023378805422608_116_00013517652013507035_017_00012396532534084133_117_00016922515469987276_116_00015545876136864702_116_00003338886116348349_015_00000816496580927726_0,
  116_00015523418469146397_116_00013517652013507035_018_00040295047841724455_116_00008915050118582778_116_00015231662513215327_116_00003338886116348349_015_00000816496580927726_0,
  116_00015523418469146397_116_00013517652013507035_016_00009718241373318923_116_00010720749761478792_115_00001491744888956595_116_00003338886116348349_015_00000816496580927726_0,
  116_00015523418469146397_116_00013517652013507035_115_00001092042707646324_017_00045273805563097663_116_00014603235265916574_116_00003338886116348349_015_00000816496580927726_0,
  116_00016023378805422608_116_00013517652013507035_116_00008242978196491499_015_00001445872859223784_114_00000142890216422672_116_00003338886116348349_015_00000816496580927726_0,
  116_00016023378805422608_116_00013517652013507035_116_00012705392996444398_016_00018672027758995209_116_00013974808018617824_016_00029950108064592316_115_00001224744871391589_0,
  116_00016023378805422608_116_00013517652013507035_116_00004784606726528002_016_00011047962600100927_116_00013189273959494383_016_00029950108064592316_115_00001224744871391589_0,
  116_00016023378805422608_116_00013517652013507035_117_00016051361815615603_117_00005887684318956068_116_00012403739900370943_116_00003338886116348349_015_00000816496580927726_0,
  116_00016023378805422608_116_00014191660869562706_116_00005063507651525058_016_00008840996369894685_116_00012089526276721567_116_00003338886116348349_015_00000816496580927726_0,
  116_00016523339141699105_116_00014865669725617991_116_00004784606726528002_016_00006032130258723112_115_00001177531265307219_116_00003338886116348349_015_00000816496580927726_0,
  116_00016523339141699105_116_00014865669725617991_116_00003947903951536833_117_00007894017255507152_116_00011461099029422814_116_00003338886116348349_015_00000816496580927726_0,
  116_00016523339141699105_116_00014865669725617991_114_00000087449998614862_016_00007536879961136456_115_00001114688540577344_116_00003338886116348349_015_00000816496580927726_0,
  116_00016523339141699105_116_00013517652013507035_016_00002299476768397227_116_00007811567003479657_116_00010832671782124061_116_00003338886116348349_015_00000816496580927726_0,
  116_00016023378805422608_116_00013517652013507035_016_00007096572678346594_115_00001021916652734101_116_00010518458158474686_116_00003338886116348349_015_00000816496580927726_0,
  116_00015523418469146397_116_00013517652013507035_116_00007238934866502097_015_00001074701265961826_115_00001020424453482531_116_00003338886116348349_115_00001224744871391589_0,
  116_00016023378805422608_116_00013517652013507035_016_00007598594343341296_116_00010319483174168569_116_00009732924099351247_116_00003338886116348349_015_00000816496580927726_0,
  116_00016023378805422608_116_00014191660869562706_016_00008881538598327754_116_00009216000059065448_115_00000941871047570187_116_00003338886116348349_015_00000816496580927726_0,
  116_00016523339141699105_116_00014191660869562706_016_00002243696583397816_116_00006607767241548985_116_00009104496852052494_016_00029950108064592316_115_00001224744871391589_0,
  116_00016523339141699105_116_00014191660869562706_015_00001139164692330126_116_00012125182817064584_116_00008318962792929054_116_00003338886116348349_015_00000816496580927726_0,
  116_00015523418469146397_116_00013517652013507035_117_00023302785865539066_016_00004828330496792433_116_00008004749169279678_116_00003338886116348349_115_00001224744871391589_0,
  116_00015523418469146397_116_00012843643157451365_016_00011280086553302437_116_00011222332995616573_116_00007533428733805614_116_00003338886116348349_015_00000816496580927726_0,
  116_00015523418469146397_116_00012843643157451365_116_00005788650056517404_016_00005329913730930215_116_00007219215110156237_116_00003338886116348349_015_00000816496580927726_0,
  116_00015523418469146397_116_00012843643157451365_116_00005509749131520348_016_00006333080199205777_116_00006905001486506862_116_00003338886116348349_115_00001224744871391589_0,
  116_00015523418469146397_116_00013517652013507035_016_00005702068053361313_116_00006708083888376544_116_00006433681051032798_116_00003338886116348349_115_00001224744871391589_0,
  116_00016023378805422608_116_00014191660869562706_116_00006625352831508573_016_00005430230377757772_116_00005962360615558734_116_00003338886116348349_015_00000816496580927726_0,
  116_00016023378805422608_116_00014191660869562706_016_00004028662503378976_117_00046014343049978595_116_00005648146991909357_116_00003338886116348349_015_00000816496580927726_0,
  116_00016023378805422608_116_00014865669725617991_116_00009247021526480902_016_00002922314207068864_116_00005333933368259982_116_00003338886116348349_015_00000816496580927726_0,
  116_00016023378805422608_116_00014191660869562706_016_00008044835823336586_116_00008212833590789884_116_00005019719744610606_116_00003338886116348349_115_00001224744871391589_0,
  116_00015523418469146397_116_00014191660869562706_017_00004587306634166558_116_00007410300416169433_117_00045483993091365416_016_00029950108064592316_115_00001224744871391589_0,
  116_00015523418469146397_116_00014865669725617991_017_00036939813933825083_117_00029963679557569567_117_00037628652500131016_116_00003338886116348349_015_00000816496580927726_0,
  116_00015523418469146397_116_00014191660869562706_016_00026284956318144066_115_00002115368103154465_117_00034486516263637257_116_00003338886116348349_115_00001224744871391589_0,
  116_00016023378805422608_116_00015539678581673662_017_00014627739934060582_018_00011344809589729025_117_00029773311908896616_116_00003338886116348349_015_00000816496580927726_0,
  116_00015523418469146397_116_00014865669725617991_016_00016132962648251217_116_00015435632162373938_117_00026631175672402857_116_00003338886116348349_115_00001224744871391589_0,
  114_00000150234581328699_116_00014865669725617991_016_00002243696583397816_116_00005905550713756088_117_00021917971317662216_116_00003338886116348349_115_00001224744871391589_0]

/-- lr/data.csv 802-901 -/
def dataCsv8 : List ℕ := [
  114_00000150234581328699_116_00014191660869562706_016_00019145092638219425_116_00015836898749684165_117_00017204766962921575_116_00003338886116348349_115_00001224744871391589_0,
  116_00015523418469146397_116_00014865669725617991_116_00014155677806429092_016_00012151445715204048_117_00012491562608180934_116_00003338886116348349_015_00000816496580927726_0,
  116_00015523418469146397_116_00014865669725617991_017_00017974551034025257_116_00005002700892308083_117_00009349426371687174_116_00003338886116348349_015_00000816496580927726_0,
  116_00015523418469146397_116_00014865669725617991_017_00005702910334154783_117_00021938347811365091_118_00062072901351934134_016_00029950108064592316_115_00001224744871391589_0,
  116_00015523418469146397_116_00014865669725617991_018_00029139010841842207_117_00023944680747916175_018_00016480504560409875_116_00003338886116348349_115_00001224744871391589_0,
  114_00000150234581328699_116_00014191660869562706_116_00007071594311503863_016_00007436563314308898_017_00006361254810781627_116_00003338886116348349_115_00001224744871391589_0,
  114_00000150234581328699_116_00014191660869562706_115_00000651379246150975_016_00013054295536652054_017_00011074459165522269_116_00003338886116348349_115_00001224744871391589_0,
  114_00000150234581328699_116_00015539678581673662_016_00018308389863228256_116_00017241331805269953_016_00001578766352026291_116_00003338886116348349_015_00000816496580927726_0,
  116_00015523418469146397_116_00015539678581673662_116_00006402232091510928_016_00003323580794379088_017_00018929799756756668_116_00003338886116348349_015_00000816496580927726_0,
  116_00015523418469146397_116_00016213687437728947_116_00004840386911527413_016_00005731180318240445_016_00002207193599325043_116_00003338886116348349_015_00000816496580927726_0,
  116_00015523418469146397_116_00015539678581673662_017_00006260712184148895_118_00028781849141293357_016_00002521407222974419_116_00003338886116348349_015_00000816496580927726_0,
  116_00016023378805422608_116_00016213687437728947_016_00002745718248392517_117_00023944680747916175_016_00002835620846623795_116_00003338886116348349_015_00000816496580927726_0,
  116_00016023378805422608_116_00016213687437728947_116_00011199328001460296_016_00004427063909482209_016_00003149834470273171_116_00003338886116348349_015_00000816496580927726_0,
  116_00016023378805422608_116_00016213687437728947_117_00014377956265633265_019_00013131449069732513_016_00003464048093922547_116_00003338886116348349_015_00000816496580927726_0,
  116_00016023378805422608_116_00016887696293784618_117_00038363435815380104_016_00005931813611895553_016_00003778261717571923_116_00003338886116348349_115_00001224744871391589_0,
  116_00016023378805422608_116_00016887696293784618_117_00012704550715650928_117_00032973178962396227_016_00004249582153045987_116_00003338886116348349_115_00001224744871391589_0,
  116_00016023378805422608_116_00016213687437728947_116_00005844430241516816_016_00008339413135756903_016_00004720902588520051_116_00003338886116348349_015_00000816496580927726_0,
  116_00016023378805422608_116_00016213687437728947_116_00009525922451477957_015_00001205112906837649_016_00005035116212169427_116_00003338886116348349_015_00000816496580927726_0,
  116_00016023378805422608_116_00016213687437728947_116_00013095854291440279_016_00008740679723067134_016_00005349329835818804_116_00003338886116348349_015_00000816496580927726_0,
  116_00016023378805422608_116_00016213687437728947_115_00000785251690149562_016_00006734346786516008_016_00005663543459468179_116_00003338886116348349_015_00000816496580927726_0,
  116_00016523339141699105_116_00016213687437728947_117_00012704550715650928_116_00002595101368446733_016_00005977757083117555_116_00003338886116348349_015_00000816496580927726_0,
  116_00016523339141699105_116_00016213687437728947_117_00036132228415403655_017_00017185144451381926_016_00006291970706766932_116_00003338886116348349_015_00000816496580927726_0,
  116_00016523339141699105_116_00016213687437728947_017_00004587306634166558_115_00000530365083279075_016_00006606184330416307_116_00003338886116348349_115_00001224744871391589_0,
  116_00017023299477975316_116_00016887696293784618_117_00031669813615450754_118_00008718519775782523_016_00007077504765890371_116_00003338886116348349_115_00001224744871391589_0,
  116_00017023299477975316_116_00017561705149840288_116_00005732869871517993_017_00028219975602413067_016_00007548825201364435_116_00003338886116348349_015_00000816496580927726_0,
  116_00017023299477975316_116_00018235714005895574_117_00036132228415403655_019_00013131449069732513_016_00007863038825013812_116_00003338886116348349_015_00000816496580927726_0,
  116_00017523259814251813_116_00018909722861951244_117_00032227615465444864_117_00017925681938262783_016_00008177252448663187_116_00003338886116348349_015_00000816496580927726_0,
  116_00017523259814251813_116_00018235714005895574_117_00021071578465562615_017_00021197810324484165_016_00008491466072312563_116_00003338886116348349_015_00000816496580927726_0,
  116_00017523259814251813_116_00018235714005895574_017_00015185541784054696_117_00027957346621018414_015_00000880567969596194_116_00003338886116348349_015_00000816496580927726_0,
  116_00017523259814251813_116_00018235714005895574_016_00002243696583397816_116_00005504284126445864_016_00009119893319611315_116_00003338886116348349_015_00000816496580927726_0,
  116_00017023299477975316_116_00017561705149840288_014_00000051442662033672_116_00005002700892308083_016_00009434106943260692_116_00003338886116348349_015_00000816496580927726_0,
  116_00017023299477975316_116_00017561705149840288_018_00029139010841842207_017_00023204143261035248_016_00009748320566910068_116_00003338886116348349_115_00001224744871391589_0,
  116_00017023299477975316_116_00017561705149840288_117_00009915541465680366_117_00013913016065160544_016_00010219641002384132_116_00003338886116348349_015_00000816496580927726_0,
  116_00017023299477975316_116_00017561705149840288_016_00004307563428376032_116_00012024866170237025_016_00010533854626033508_116_00003338886116348349_015_00000816496580927726_0,
  116_00017023299477975316_116_00017561705149840288_116_00011478228926457352_015_00001024542942548048_016_00010848068249682883_016_00029950108064592316_115_00001224744871391589_0,
  116_00016523339141699105_116_00017561705149840288_118_00032219192657510165_116_00007510617062996991_016_00011633602308806323_116_00003338886116348349_115_00001224744871391589_0,
  116_00017023299477975316_116_00017561705149840288_116_00009525922451477957_016_00005129280437275106_016_00012104922744280389_116_00003338886116348349_015_00000816496580927726_0,
  116_00017023299477975316_116_00017561705149840288_116_00004115244506535067_016_00007837829901619122_016_00012419136367929764_116_00003338886116348349_015_00000816496580927726_0,
  116_00017023299477975316_116_00017561705149840288_115_00000740627542150033_017_00015178811514830773_015_00001273334999157914_016_00029950108064592316_115_00001224744871391589_0,
  116_00017523259814251813_116_00017561705149840288_017_00014627739934060582_016_00003524214088034203_015_00001351888405070258_116_00003338886116348349_115_00001224744871391589_0,
  116_00017023299477975316_116_00016887696293784618_017_00024110371383960497_117_00020935181343089515_016_00013990204486176645_116_00003338886116348349_015_00000816496580927726_0,
  116_00017023299477975316_116_00016887696293784618_115_00000556552931651976_016_00005530547024585329_015_00001430441810982602_116_00003338886116348349_015_00000816496580927726_0,
  116_00017023299477975316_116_00016887696293784618_017_00015185541784054696_116_00005002700892308083_016_00014618631733475396_116_00003338886116348349_115_00001224744871391589_0,
  116_00017023299477975316_116_00016887696293784618_117_00029996408065468416_016_00002721680913413756_015_00001508995216894946_116_00003338886116348349_015_00000816496580927726_0,
  116_00017523259814251813_116_00016887696293784618_017_00015185541784054696_117_00049023842454805255_016_00015404165792598836_116_00003338886116348349_015_00000816496580927726_0,
  115_00001852318048680452_116_00018235714005895574_115_00000556552931651976_017_00015178811514830773_016_00015718379416248212_116_00003338886116348349_015_00000816496580927726_0,
  116_00018023220150528307_116_00017561705149840288_116_00006848473571506217_016_00010044796131825364_015_00001603259303989759_116_00003338886116348349_115_00001224744871391589_0,
  116_00018023220150528307_116_00017561705149840288_015_00007219204857265952_116_00034495795059609637_016_00016503913475371652_116_00003338886116348349_015_00000816496580927726_1,
  115_00001852318048680452_116_00017561705149840288_116_00004115244506535067_016_00007135613373826232_016_00016818127099021027_116_00003338886116348349_015_00000816496580927726_0,
  116_00018023220150528307_116_00017561705149840288_016_00002634157878393695_117_00045011176581703016_116_00016959837443286896_016_00029950108064592316_115_00001224744871391589_0,
  115_00001852318048680452_116_00018235714005895574_016_00001574334363404881_116_00008614100178100111_116_00016174303384163455_116_00003338886116348349_015_00000816496580927726_0,
  116_00019023140823081015_116_00018909722861951244_116_00008354538566490322_016_00008640363076239577_116_00015860089760514078_116_00003338886116348349_115_00001224744871391589_0,
  115_00001852318048680452_116_00018235714005895574_116_00009525922451477957_016_00009543212897687582_116_00015388769325040015_116_00003338886116348349_115_00001224744871391589_0,
  115_00001852318048680452_116_00018235714005895574_116_00005286628391522703_016_00009041629663549801_115_00001491744888956595_116_00003338886116348349_015_00000816496580927726_0,
  115_00001852318048680452_116_00018235714005895574_117_00022744984015544953_016_00001618197798310635_116_00014603235265916574_116_00003338886116348349_115_00001224744871391589_0,
  116_00019523101159357228_116_00018909722861951244_017_00042517832433766206_116_00009216000059065448_116_00014131914830442511_116_00003338886116348349_015_00000816496580927726_0,
  116_00019523101159357228_115_00001958373171800653_016_00020037575598210005_116_00017341648452097511_116_00013817701206793134_116_00003338886116348349_015_00000816496580927726_0,
  116_00019523101159357228_115_00001958373171800653_115_00001052996578146736_016_00013355245477134718_116_00013503487583143758_116_00003338886116348349_115_00001224744871391589_0,
  116_00019023140823081015_114_00000202577405740622_117_00012704550715650928_117_00023944680747916175_116_00013032167147669695_116_00003338886116348349_115_00001224744871391589_0,
  116_00019023140823081015_114_00000202577405740622_018_00017982973841959956_017_00006150313300350718_115_00001256084671219563_016_00029950108064592316_115_00001224744871391589_0,
  116_00019523101159357228_116_00020931749430117867_018_00012404955342018832_116_00007410300416169433_115_00001177531265307219_016_00029950108064592316_115_00001224744871391589_0,
  116_00019523101159357228_116_00020931749430117867_014_00000229939254031788_116_00016739748571132171_116_00010989778593948751_116_00003338886116348349_115_00001224744871391589_0,
  116_00019523101159357228_115_00002160575828617316_016_00005925188793358959_116_00009015366765410335_116_00010518458158474686_016_00029950108064592316_115_00001224744871391589_0,
  116_00020023061495633723_116_00022279767142228826_116_00006848473571506217_017_00042264306158271003_116_00009732924099351247_116_00003338886116348349_015_00000816496580927726_0,
  116_00020023061495633723_116_00022279767142228826_015_00002818148260812405_116_00017742915039407734_115_00000941871047570187_116_00003338886116348349_115_00001224744871391589_0,
  115_00002052302183191022_115_00002295377599828411_115_00000696003394150504_015_00001024542942548048_116_00008947390040227806_116_00003338886116348349_015_00000816496580927726_0,
  115_00002052302183191022_115_00002295377599828411_016_00007765934898339529_116_00013328982578995259_115_00000863317641657843_116_00003338886116348349_015_00000816496580927726_0,
  115_00002052302183191022_116_00023627784854339784_017_00030803993583889844_116_00006808400535204094_116_00008318962792929054_016_00029950108064592316_115_00001224744871391589_0,
  116_00021022982168186433_116_00023627784854339784_117_00013820154415639155_117_00022941514279640599_116_00007533428733805614_116_00003338886116348349_115_00001224744871391589_0,
  116_00021022982168186433_116_00023627784854339784_115_00001008372430147207_016_00009242262957204916_115_00000706210829833155_116_00003338886116348349_015_00000816496580927726_0,
  116_00021022982168186433_115_00002430179371039545_115_00001192447040645264_016_00016264428235133859_116_00006747894674682174_116_00003338886116348349_015_00000816496580927726_0,
  116_00021022982168186433_115_00002430179371039545_116_00011143547816460884_016_00013254928830307169_116_00006433681051032798_116_00003338886116348349_015_00000816496580927726_0,
  116_00021022982168186433_115_00002430179371039545_116_00011366668556458528_016_00011750179127893825_116_00006119467427383422_116_00003338886116348349_115_00001224744871391589_0,
  115_00002052302183191022_115_00002430179371039545_016_00019702894488213536_116_00018344814920373074_116_00005648146991909357_116_00003338886116348349_015_00000816496580927726_0,
  115_00002052302183191022_115_00002430179371039545_017_00020205758434001708_116_00011523282936099244_116_00005333933368259982_116_00003338886116348349_015_00000816496580927726_0,
  116_00021022982168186433_116_00024975802566450738_116_00005286628391522703_016_00005530547024585329_116_00005019719744610606_116_00003338886116348349_115_00001224744871391589_0,
  116_00021522942504462925_116_00024975802566450738_016_00020985838743199996_115_00001764259839258018_117_00045483993091365416_116_00003338886116348349_015_00000816496580927726_0,
  115_00002202290284073914_115_00002564981142250641_016_00002522597508394872_115_00000640713394789387_117_00042341856854871657_116_00003338886116348349_115_00001224744871391589_0,
  116_00021522942504462925_116_00024975802566450738_016_00008156396193335408_116_00005103017539135641_117_00037628652500131016_116_00003338886116348349_115_00001224744871391589_0,
  116_00021022982168186433_116_00024975802566450738_116_00011255108186459706_016_00014659361885892956_117_00032915448145390375_116_00003338886116348349_015_00000816496580927726_0,
  116_00021022982168186433_116_00024975802566450738_116_00016944687056399654_015_00003632775760064512_117_00029773311908896616_116_00003338886116348349_115_00001224744871391589_1,
  116_00021522942504462925_115_00002564981142250641_116_00004171024691534478_016_00006232763552378227_117_00025060107554155975_116_00003338886116348349_015_00000816496580927726_0,
  116_00021522942504462925_115_00002564981142250641_016_00011168526183303615_116_00014131515753615709_117_00021917971317662216_116_00003338886116348349_115_00001224744871391589_0,
  116_00021522942504462925_116_00024975802566450738_116_00002720739881549785_115_00000570491742010098_117_00017204766962921575_116_00003338886116348349_015_00000816496580927726_0,
  116_00021022982168186433_115_00002430179371039545_116_00010195284671470892_016_00008038463195274238_117_00014062630726427813_116_00003338886116348349_015_00000816496580927726_0,
  116_00021522942504462925_115_00002564981142250641_116_00007908297086495032_015_00001205112906837649_117_00010920494489934053_116_00003338886116348349_015_00000816496580927726_0,
  116_00021522942504462925_115_00002564981142250641_117_00045057058015309454_017_00006150313300350718_117_00007778358253440293_116_00003338886116348349_015_00000816496580927726_0,
  116_00021522942504462925_115_00002564981142250641_016_00034707764253055164_113_00000023561280555406_118_00046362220169465326_016_00029950108064592316_115_00001224744871391589_0,
  115_00002202290284073914_116_00026323820278561696_016_00006259869903355426_116_00011924549523409467_017_00003219118574287868_116_00003338886116348349_115_00001224744871391589_0,
  115_00002202290284073914_116_00026323820278561696_116_00008354538566490322_016_00006232763552378227_017_00007932322929028508_116_00003338886116348349_015_00000816496580927726_0,
  115_00002202290284073914_116_00026997829134617364_116_00009414362081479135_016_00012452395655686714_017_00011074459165522269_116_00003338886116348349_015_00000816496580927726_0,
  116_00021522942504462925_116_00026323820278561696_116_00007294715051501508_015_00000793814654844668_016_00001421659540201603_116_00003338886116348349_015_00000816496580927726_0,
  116_00021522942504462925_116_00026323820278561696_115_00001092042707646324_015_00001445872859223784_016_00001735873163850979_116_00003338886116348349_015_00000816496580927726_0,
  116_00021522942504462925_115_00002564981142250641_116_00006458012276510339_015_00000252104761975864_016_00002050086787500355_116_00003338886116348349_115_00001224744871391589_0,
  115_00002202290284073914_115_00002564981142250641_116_00006290671721512106_016_00008640363076239577_016_00002521407222974419_116_00003338886116348349_015_00000816496580927726_0,
  115_00002202290284073914_115_00002564981142250641_116_00005788650056517404_016_00011649862481066267_016_00002835620846623795_116_00003338886116348349_115_00001224744871391589_0,
  116_00022522863177015635_116_00026323820278561696_017_00019090154734013484_117_00049023842454805255_016_00003306941282097859_116_00003338886116348349_015_00000816496580927726_0,
  115_00002202290284073914_115_00002564981142250641_016_00004084442688378387_116_00008814733471755224_017_00036211549057472353_116_00003338886116348349_015_00000816496580927726_0,
  115_00002202290284073914_115_00002564981142250641_116_00005175068021523881_016_00009944479484997806_016_00003935368529396611_116_00003338886116348349_015_00000816496580927726_0,
  115_00002202290284073914_115_00002564981142250641_116_00011701349666454997_016_00015361578413685846_016_00004249582153045987_016_00029950108064592316_115_00001224744871391589_0]

/-- lr/data.csv 902-1001 -/
def dataCsv9 : List ℕ := [
  115_00002202290284073914_115_00002564981142250641_017_00016858947334037033_117_00049023842454805255_016_00005035116212169427_116_00003338886116348349_015_00000816496580927726_0,
  115_00002202290284073914_116_00026323820278561696_116_00015773303171412019_016_00022383743691614786_016_00005349329835818804_016_00029950108064592316_115_00001224744871391589_0,
  115_00002202290284073914_116_00026323820278561696_116_00008689219676486789_016_00008740679723067134_016_00006134863894942243_116_00003338886116348349_015_00000816496580927726_0,
  116_00021522942504462925_115_00002564981142250641_015_00004078780441799099_115_00002546729684512957_016_00006449077518591619_116_00003338886116348349_015_00000816496580927726_1,
  116_00021522942504462925_115_00002564981142250641_117_00045057058015309454_016_00009844162838170248_016_00006763291142240996_016_00029950108064592316_115_00001224744871391589_0,
  115_00002202290284073914_116_00026323820278561696_117_00036132228415403655_017_00012169312110004112_016_00007548825201364435_116_00003338886116348349_015_00000816496580927726_0,
  115_00002202290284073914_116_00026323820278561696_117_00042825850615333005_016_00009242262957204916_016_00007863038825013812_116_00003338886116348349_115_00001224744871391589_0,
  115_00002202290284073914_116_00026323820278561696_016_00007263913233344829_116_00011021699701961463_016_00008334359260487876_116_00003338886116348349_115_00001224744871391589_0,
  116_00022522863177015635_116_00026323820278561696_015_00001579828153825475_116_00015736582102856609_015_00000880567969596194_116_00003338886116348349_115_00001224744871391589_0,
  116_00022522863177015635_116_00026997829134617364_116_00004617266171529768_117_00007894017255507152_016_00009277000131436004_116_00003338886116348349_015_00000816496580927726_0,
  116_00022522863177015635_116_00026997829134617364_018_00040295047841724455_117_00040998510708600777_016_00009591213755085379_116_00003338886116348349_015_00000816496580927726_0,
  115_00002202290284073914_116_00026323820278561696_116_00002720739881549785_016_00002721680913413756_016_00009905427378734756_116_00003338886116348349_115_00001224744871391589_0,
  115_00002202290284073914_116_00026997829134617364_017_00016858947334037033_017_00004143980363799563_015_00001037674781420882_116_00003338886116348349_015_00000816496580927726_0,
  116_00022522863177015635_116_00026997829134617364_016_00004586464353373088_116_00010520116467823681_016_00010690961437858195_116_00003338886116348349_015_00000816496580927726_0,
  115_00002302282351329213_116_00027671837990673036_117_00011588947015662704_017_00006150313300350718_016_00011005175061507573_116_00003338886116348349_115_00001224744871391589_0,
  115_00002302282351329213_115_00002834584684672832_117_00007126532215709803_117_00017925681938262783_016_00011476495496981636_116_00003338886116348349_115_00001224744871391589_0,
  115_00002352278384956834_115_00002834584684672832_017_00028014984333919285_117_00037989011303774045_014_00000119478159324557_116_00003338886116348349_115_00001224744871391589_0,
  115_00002352278384956834_115_00002901985570278399_116_00003557442656540954_016_00011047962600100927_016_00012419136367929764_116_00003338886116348349_015_00000816496580927726_0,
  115_00002352278384956834_115_00002901985570278399_117_00036690030265397766_117_00014916182533436123_015_00001273334999157914_116_00003338886116348349_115_00001224744871391589_0,
  115_00002302282351329213_115_00002834584684672832_116_00007350495236500919_015_00001074701265961826_016_00013204670427053204_116_00003338886116348349_015_00000816496580927726_0,
  116_00022522863177015635_116_00027671837990673036_117_00011588947015662704_016_00004126113968999543_015_00001351888405070258_116_00003338886116348349_115_00001224744871391589_0,
  116_00022522863177015635_116_00027671837990673036_017_00030246191733895733_117_00027957346621018414_016_00013990204486176645_016_00029950108064592316_115_00001224744871391589_0,
  116_00022522863177015635_116_00027671837990673036_116_00008856560231485022_016_00012452395655686714_016_00014775738545300083_116_00003338886116348349_115_00001224744871391589_0,
  116_00022522863177015635_116_00026997829134617364_116_00006458012276510339_016_00005329913730930215_016_00015247058980774149_116_00003338886116348349_115_00001224744871391589_0,
  116_00022522863177015635_116_00026997829134617364_016_00014571117468267702_116_00012426132757547248_016_00015718379416248212_116_00003338886116348349_015_00000816496580927726_0,
  115_00002202290284073914_116_00026323820278561696_016_00004698024723371911_116_00009115683412237894_015_00001603259303989759_016_00029950108064592316_115_00001224744871391589_0,
  115_00002202290284073914_116_00026323820278561696_116_00009302801711480313_015_00001566252835416852_016_00016818127099021027_116_00003338886116348349_015_00000816496580927726_1,
  115_00002202290284073914_116_00026997829134617364_116_00007964077271494443_016_00012452395655686714_116_00016959837443286896_016_00029950108064592316_115_00001224744871391589_0,
  115_00002202290284073914_116_00026997829134617364_015_00002288236503317998_116_00018144181626717961_116_00016174303384163455_116_00003338886116348349_015_00000816496580927726_0,
  115_00002202290284073914_116_00026997829134617364_116_00006681133016507984_016_00011148279246928485_116_00015860089760514078_116_00003338886116348349_015_00000816496580927726_0,
  116_00022522863177015635_116_00027671837990673036_116_00004784606726528002_016_00007336246667481341_116_00015545876136864702_116_00003338886116348349_115_00001224744871391589_0,
  116_00022522863177015635_116_00027671837990673036_018_00017982973841959956_117_00037989011303774045_115_00001507455570139064_116_00003338886116348349_015_00000816496580927726_0,
  115_00002202290284073914_116_00026997829134617364_116_00009804823376475014_016_00010044796131825364_116_00014760342077741262_116_00003338886116348349_015_00000816496580927726_0,
  116_00022522863177015635_116_00026997829134617364_016_00003247739913387218_117_00027957346621018414_116_00014446128454091887_116_00003338886116348349_015_00000816496580927726_0,
  116_00022522863177015635_116_00026997829134617364_115_00001186869022145323_016_00010847329306445812_116_00014131914830442511_116_00003338886116348349_115_00001224744871391589_0,
  116_00022522863177015635_116_00026997829134617364_016_00005702068053361313_117_00033976345430671806_116_00013660594394968446_116_00003338886116348349_115_00001224744871391589_0,
  115_00002202290284073914_116_00026323820278561696_116_00006736913201507395_016_00006232763552378227_116_00013189273959494383_116_00003338886116348349_115_00001224744871391589_0,
  115_00002202290284073914_115_00002564981142250641_116_00015382841876416138_016_00021882160457477005_116_00012717953524020318_116_00003338886116348349_015_00000816496580927726_0,
  115_00002202290284073914_115_00002564981142250641_015_00001585406172325416_116_00014231832400443263_116_00012403739900370943_116_00003338886116348349_015_00000816496580927726_0,
  116_00022522863177015635_116_00026323820278561696_116_00002832300251548608_017_00007153479768626296_116_00012089526276721567_116_00003338886116348349_015_00000816496580927726_0,
  115_00002202290284073914_115_00002564981142250641_116_00005342408576522114_016_00008941313016722243_115_00001177531265307219_116_00003338886116348349_015_00000816496580927726_0,
  115_00002202290284073914_115_00002564981142250641_016_00006204089718356014_116_00011824232876581913_116_00011461099029422814_116_00003338886116348349_015_00000816496580927726_0,
  116_00021522942504462925_116_00024975802566450738_117_00042825850615333005_016_00004326747262654651_115_00001114688540577344_116_00003338886116348349_115_00001224744871391589_0,
  115_00002202290284073914_115_00002564981142250641_116_00003445882286542132_016_00005028963790447548_116_00010675564970299374_116_00003338886116348349_115_00001224744871391589_0,
  116_00021522942504462925_116_00024975802566450738_016_00009662461188319512_116_00011523282936099244_115_00001020424453482531_116_00003338886116348349_115_00001224744871391589_0,
  116_00021522942504462925_116_00024975802566450738_116_00010697306336465593_016_00010446062719135587_116_00009732924099351247_116_00003338886116348349_115_00001224744871391589_0,
  115_00002202290284073914_115_00002564981142250641_116_00014044117436430268_016_00014859995179548064_116_00009261603663877183_116_00003338886116348349_015_00000816496580927726_0,
  115_00002202290284073914_115_00002564981142250641_116_00006179111351513282_017_00045273805563097663_116_00008947390040227806_116_00003338886116348349_015_00000816496580927726_0,
  115_00002202290284073914_116_00024975802566450738_116_00006290671721512106_016_00005530547024585329_115_00000863317641657843_116_00003338886116348349_115_00001224744871391589_0,
  115_00002202290284073914_116_00024975802566450738_016_00005423167128364257_116_00007309983769341876_116_00008161855981104366_116_00003338886116348349_015_00000816496580927726_0,
  115_00002202290284073914_115_00002564981142250641_116_00006402232091510928_015_00000252104761975864_115_00000784764235745499_116_00003338886116348349_015_00000816496580927726_0,
  115_00002202290284073914_116_00024975802566450738_117_00016609163665609716_117_00042001677176876356_116_00007533428733805614_016_00029950108064592316_115_00001224744871391589_0,
  116_00022522863177015635_115_00002564981142250641_116_00005063507651525058_016_00008941313016722243_116_00006747894674682174_116_00003338886116348349_015_00000816496580927726_0,
  116_00022522863177015635_116_00026323820278561696_016_00006204089718356014_116_00007209667122514325_116_00006433681051032798_116_00003338886116348349_015_00000816496580927726_0,
  115_00002202290284073914_115_00002564981142250641_115_00000696003394150504_015_00000252104761975864_116_00006119467427383422_016_00029950108064592316_115_00001224744871391589_0,
  115_00002202290284073914_116_00024975802566450738_015_00002076271800320235_116_00019147348094993524_116_00005333933368259982_116_00003338886116348349_015_00000816496580927726_0,
  115_00002202290284073914_115_00002564981142250641_016_00005200046388366611_116_00007811567003479657_116_00005019719744610606_016_00029950108064592316_115_00001224744871391589_0,
  116_00021522942504462925_115_00002430179371039545_116_00008466098936489144_018_00011344809589729025_117_00042341856854871657_116_00003338886116348349_115_00001224744871391589_0,
  116_00021022982168186433_115_00002430179371039545_116_00007796736716496209_016_00007637196607964014_117_00037628652500131016_116_00003338886116348349_015_00000816496580927726_0,
  116_00021022982168186433_116_00023627784854339784_117_00018840371065586167_117_00048020675986529676_117_00034486516263637257_116_00003338886116348349_015_00000816496580927726_0,
  116_00021022982168186433_116_00023627784854339784_117_00002664117415756904_117_00020935181343089515_115_00000313443800271435_116_00003338886116348349_015_00000816496580927726_0,
  116_00021022982168186433_116_00023627784854339784_117_00025533993265515514_017_00005147146832075141_117_00028202243790649734_116_00003338886116348349_015_00000816496580927726_0,
  116_00021022982168186433_115_00002295377599828411_116_00003278541731543898_016_00003223264147551537_117_00025060107554155975_116_00003338886116348349_115_00001224744871391589_0,
  116_00021022982168186433_115_00002295377599828411_016_00004586464353373088_116_00008413466884444997_117_00020346903199415334_116_00003338886116348349_015_00000816496580927726_0,
  116_00021522942504462925_116_00023627784854339784_016_00011056965813304793_115_00001383056581313304_117_00017204766962921575_116_00003338886116348349_015_00000816496580927726_0,
  116_00021022982168186433_115_00002295377599828411_116_00001716696551560383_016_00006533713492860893_117_00014062630726427813_116_00003338886116348349_015_00000816496580927726_0,
  116_00021022982168186433_116_00023627784854339784_016_00005702068053361313_116_00007811567003479657_117_00010920494489934053_116_00003338886116348349_115_00001224744871391589_0,
  115_00002052302183191022_115_00002295377599828411_117_00003779721115745129_117_00013913016065160544_118_00062072901351934134_116_00003338886116348349_115_00001224744871391589_0,
  115_00002052302183191022_116_00022279767142228826_017_00004587306634166558_016_00000915981270517738_118_00014940857804527726_116_00003338886116348349_015_00000816496580927726_0,
  115_00002052302183191022_115_00002295377599828411_116_00007071594311503863_017_00010162979173452956_018_00016480504560409875_116_00003338886116348349_015_00000816496580927726_0,
  116_00021022982168186433_116_00023627784854339784_016_00001630114548404292_117_00049023842454805255_017_00004790186692534748_116_00003338886116348349_015_00000816496580927726_0,
  115_00002052302183191022_115_00002295377599828411_017_00010165325134107683_017_00011166145641728534_017_00007932322929028508_116_00003338886116348349_015_00000816496580927726_0,
  116_00021022982168186433_115_00002295377599828411_016_00005869408608359546_117_00048020675986529676_017_00011074459165522269_116_00003338886116348349_015_00000816496580927726_0,
  115_00002052302183191022_115_00002295377599828411_015_00000782171508333894_116_00009617266646375675_016_00001421659540201603_116_00003338886116348349_015_00000816496580927726_0,
  116_00020023061495633723_115_00002295377599828411_117_00015493559965621492_117_00048020675986529676_016_00001735873163850979_116_00003338886116348349_015_00000816496580927726_0,
  116_00020023061495633723_115_00002295377599828411_016_00004976925648368967_117_00031970012494120725_016_00002050086787500355_116_00003338886116348349_115_00001224744871391589_0,
  116_00020023061495633723_115_00002295377599828411_116_00008187198011492087_016_00011348912540583593_016_00002521407222974419_116_00003338886116348349_115_00001224744871391589_0,
  116_00020023061495633723_116_00022279767142228826_016_00021097399113198816_116_00019047031448165967_016_00002992727658448483_116_00003338886116348349_015_00000816496580927726_0,
  116_00019023140823081015_115_00002160575828617316_117_00007126532215709803_017_00023204143261035248_016_00003306941282097859_116_00003338886116348349_115_00001224744871391589_0,
  116_00019023140823081015_115_00002160575828617316_116_00008354538566490322_016_00013355245477134718_016_00003778261717571923_116_00003338886116348349_015_00000816496580927726_0,
  116_00019523101159357228_116_00022279767142228826_116_00007238934866502097_017_00028219975602413067_016_00004092475341221299_116_00003338886116348349_015_00000816496580927726_0,
  116_00019023140823081015_115_00002160575828617316_015_00000648299064335307_116_00008915050118582778_017_00044066889648706753_116_00003338886116348349_015_00000816496580927726_0,
  116_00019023140823081015_116_00020931749430117867_117_00012704550715650928_117_00008897183723782728_016_00004720902588520051_116_00003338886116348349_015_00000816496580927726_0,
  116_00019023140823081015_116_00020931749430117867_117_00007126532215709803_116_00005103017539135641_016_00005035116212169427_116_00003338886116348349_015_00000816496580927726_0,
  115_00001852318048680452_115_00001958373171800653_116_00006681133016507984_016_00008640363076239577_016_00005349329835818804_116_00003338886116348349_015_00000816496580927726_0,
  116_00018023220150528307_116_00018909722861951244_016_00011670547848298316_116_00014733415634581044_016_00005663543459468179_116_00003338886116348349_015_00000816496580927726_0,
  116_00018023220150528307_115_00001958373171800653_016_00005534727498363079_116_00007510617062996991_016_00005977757083117555_016_00029950108064592316_115_00001224744871391589_0,
  115_00001852318048680452_115_00001958373171800653_117_00002664117415756904_116_00006206500654238761_016_00006763291142240996_116_00003338886116348349_115_00001224744871391589_0,
  115_00001852318048680452_115_00001958373171800653_015_00001312083265828301_116_00014131515753615709_015_00000723461157771506_016_00029950108064592316_115_00001224744871391589_0,
  116_00019023140823081015_114_00000202577405740622_015_00003236499648307989_115_00002175558091250999_016_00008020145636838499_116_00003338886116348349_115_00001224744871391589_0,
  116_00019023140823081015_114_00000202577405740622_115_00000696003394150504_016_00008339413135756903_016_00008491466072312563_116_00003338886116348349_015_00000816496580927726_0,
  116_00019523101159357228_114_00000202577405740622_117_00008799937765692141_017_00020194643856208588_015_00000880567969596194_116_00003338886116348349_115_00001224744871391589_0,
  116_00019523101159357228_115_00001958373171800653_016_00006259869903355426_117_00043004843645151863_016_00009277000131436004_116_00003338886116348349_015_00000816496580927726_0,
  116_00019523101159357228_115_00001958373171800653_117_00029996408065468416_115_00000399953442403252_016_00009591213755085379_116_00003338886116348349_115_00001224744871391589_0,
  116_00019023140823081015_116_00018909722861951244_115_00002068195945136021_015_00002348722680671791_016_00010062534190559445_116_00003338886116348349_115_00001224744871391589_0,
  115_00001852318048680452_116_00018235714005895574_017_00015185541784054696_117_00042001677176876356_016_00010533854626033508_116_00003338886116348349_015_00000816496580927726_0,
  115_00001852318048680452_116_00018909722861951244_115_00001409989762142968_016_00011148279246928485_016_00010848068249682883_116_00003338886116348349_115_00001224744871391589_0,
  115_00001852318048680452_116_00018909722861951244_116_00005175068021523881_016_00005931813611895553_016_00011319388685156948_116_00003338886116348349_115_00001224744871391589_0,
  116_00018023220150528307_116_00018909722861951244_015_00002968754760310815_115_00002065209779740687_015_00001179070912063101_116_00003338886116348349_115_00001224744871391589_0,
  115_00001852318048680452_115_00001958373171800653_017_00011838730684090021_116_00006808400535204094_016_00012262029556105076_116_00003338886116348349_015_00000816496580927726_0]

/-- lr/data.csv 1002-1101 -/
def dataCsv10 : List ℕ := [
  115_00001852318048680452_115_00001958373171800653_016_00006427210458353659_116_00010419799820996123_016_00012576243179754452_116_00003338886116348349_015_00000816496580927726_0,
  115_00001852318048680452_115_00001958373171800653_016_00006873451938348949_116_00007109350475686768_016_00012890456803403827_116_00003338886116348349_015_00000816496580927726_0,
  115_00001852318048680452_116_00018909722861951244_015_00000598096897835837_116_00005002700892308083_016_00013204670427053204_116_00003338886116348349_015_00000816496580927726_0,
  116_00019023140823081015_115_00001958373171800653_116_00005286628391522703_016_00006734346786516008_015_00001351888405070258_116_00003338886116348349_015_00000816496580927726_0,
  115_00001852318048680452_116_00018909722861951244_116_00006402232091510928_017_00020194643856208588_016_00013833097674351955_016_00029950108064592316_115_00001224744871391589_0,
  116_00019023140823081015_116_00018909722861951244_114_00000087449998614862_015_00001205112906837649_016_00014618631733475396_116_00003338886116348349_015_00000816496580927726_0,
  116_00019023140823081015_115_00001958373171800653_116_00007015814126504452_016_00013455562123962277_016_00014932845357124773_116_00003338886116348349_015_00000816496580927726_0,
  116_00019023140823081015_116_00018909722861951244_016_00005255826573366024_116_00008915050118582778_116_00016959837443286896_116_00003338886116348349_115_00001224744871391589_0,
  116_00019023140823081015_115_00001958373171800653_116_00005453968946520936_017_00017185144451381926_115_00001648851700781283_116_00003338886116348349_015_00000816496580927726_0,
  116_00019023140823081015_116_00018909722861951244_116_00008577659306487967_016_00004025797322171985_116_00016174303384163455_116_00003338886116348349_115_00001224744871391589_0,
  116_00019023140823081015_116_00018909722861951244_016_00000737631588413712_116_00005203334185963199_115_00001570298294868939_116_00003338886116348349_115_00001224744871391589_0,
  116_00019023140823081015_116_00018235714005895574_116_00004896167096526824_017_00028219975602413067_116_00015231662513215327_116_00003338886116348349_115_00001224744871391589_0,
  116_00019523101159357228_115_00001958373171800653_116_00005900210426516227_117_00014916182533436123_116_00014760342077741262_116_00003338886116348349_115_00001224744871391589_0,
  116_00019523101159357228_116_00018909722861951244_016_00004474903983374266_116_00010319483174168569_114_00000142890216422672_116_00003338886116348349_115_00001224744871391589_0,
  116_00019023140823081015_116_00018909722861951244_116_00005230848206523292_017_00018188310919657433_116_00013817701206793134_116_00003338886116348349_015_00000816496580927726_0,
  116_00019023140823081015_116_00018909722861951244_116_00010195284671470892_016_00003624530734861761_116_00013503487583143758_116_00003338886116348349_015_00000816496580927726_0,
  115_00001852318048680452_116_00018909722861951244_115_00001225915151644911_016_00028402742501268166_116_00013189273959494383_116_00003338886116348349_115_00001224744871391589_1,
  115_00001852318048680452_116_00018909722861951244_016_00005478947313363668_116_00008413466884444997_116_00012717953524020318_116_00003338886116348349_015_00000816496580927726_0,
  115_00001852318048680452_116_00018909722861951244_116_00013820996696432624_016_00018672027758995209_116_00012403739900370943_116_00003338886116348349_015_00000816496580927726_0,
  115_00001852318048680452_116_00018235714005895574_115_00000785251690149562_016_00012753345596169388_116_00012089526276721567_116_00003338886116348349_015_00000816496580927726_0,
  115_00001852318048680452_116_00018235714005895574_116_00009302801711480313_016_00017769177937547203_115_00001177531265307219_116_00003338886116348349_015_00000816496580927726_0,
  115_00001852318048680452_116_00018909722861951244_115_00000472882654152859_015_00000252104761975864_116_00011461099029422814_116_00003338886116348349_115_00001224744871391589_0,
  116_00019023140823081015_116_00018909722861951244_117_00013262352565645041_117_00034979511898947385_116_00010989778593948751_116_00003338886116348349_015_00000816496580927726_0,
  116_00019023140823081015_116_00018235714005895574_016_00019089312453220013_116_00015736582102856609_116_00010675564970299374_116_00003338886116348349_015_00000816496580927726_0,
  116_00019023140823081015_116_00018235714005895574_016_00009606681003320101_116_00010118849880513456_116_00010361351346649998_116_00003338886116348349_015_00000816496580927726_0,
  116_00019023140823081015_116_00018235714005895574_116_00003557442656540954_117_00029963679557569567_116_00010047137723000623_116_00003338886116348349_015_00000816496580927726_0,
  116_00018023220150528307_116_00017561705149840288_116_00001493575811562738_117_00031970012494120725_116_00009732924099351247_116_00003338886116348349_015_00000816496580927726_0,
  115_00001852318048680452_116_00017561705149840288_116_00011366668556458528_016_00010546379365963146_115_00000941871047570187_116_00003338886116348349_115_00001224744871391589_0,
  115_00001852318048680452_116_00017561705149840288_117_00037247832115391877_118_00008718519775782523_116_00008947390040227806_116_00003338886116348349_015_00000816496580927726_0,
  116_00019023140823081015_116_00018235714005895574_116_00003445882286542132_117_00048020675986529676_115_00000863317641657843_116_00003338886116348349_115_00001224744871391589_0,
  115_00001852318048680452_116_00017561705149840288_015_00001233991006829125_114_00000116235995829268_116_00008161855981104366_116_00003338886116348349_015_00000816496580927726_0,
  116_00018023220150528307_116_00016887696293784618_017_00005702910334154783_117_00038992177772049624_115_00000784764235745499_116_00003338886116348349_015_00000816496580927726_0,
  115_00001852318048680452_116_00017561705149840288_016_00006092529348357192_116_00006005867360583647_116_00007533428733805614_116_00003338886116348349_015_00000816496580927726_0,
  116_00018023220150528307_116_00016887696293784618_016_00000960752328411357_116_00001993201487481394_116_00007219215110156237_016_00029950108064592316_115_00001224744871391589_0,
  115_00001852318048680452_116_00017561705149840288_016_00023384386698174677_116_00020953047737889534_116_00006433681051032798_116_00003338886116348349_115_00001224744871391589_0,
  116_00018023220150528307_116_00017561705149840288_116_00007573615976498564_016_00008439729782584461_116_00005962360615558734_116_00003338886116348349_015_00000816496580927726_0,
  116_00018023220150528307_116_00016887696293784618_016_00008100616008335997_116_00008614100178100111_116_00005648146991909357_116_00003338886116348349_115_00001224744871391589_0,
  116_00018023220150528307_116_00016887696293784618_016_00003191959728387807_117_00049023842454805255_116_00005176826556435293_016_00029950108064592316_115_00001224744871391589_0,
  116_00017023299477975316_116_00016213687437728947_117_00022744984015544953_017_00011166145641728534_116_00004391292497311854_116_00003338886116348349_015_00000816496580927726_0,
  116_00016523339141699105_116_00015539678581673662_117_00008242135915698029_117_00031970012494120725_117_00040770788736624775_116_00003338886116348349_015_00000816496580927726_0,
  116_00016523339141699105_116_00015539678581673662_117_00020513776615568505_016_00003925480675344427_117_00037628652500131016_116_00003338886116348349_015_00000816496580927726_0,
  116_00017023299477975316_116_00016213687437728947_016_00015073139133262403_116_00014934048928236157_117_00034486516263637257_116_00003338886116348349_015_00000816496580927726_0,
  116_00017023299477975316_116_00016213687437728947_018_00017982973841959956_116_00002595101368446733_115_00000313443800271435_116_00003338886116348349_015_00000816496580927726_0,
  116_00017523259814251813_116_00016213687437728947_116_00006011770796515049_016_00005229597084102664_117_00028202243790649734_116_00003338886116348349_015_00000816496580927726_0,
  116_00017523259814251813_116_00016213687437728947_116_00001493575811562738_016_00003624530734861761_117_00025060107554155975_116_00003338886116348349_015_00000816496580927726_0,
  116_00018023220150528307_116_00016887696293784618_116_00007573615976498564_016_00012853662242996937_117_00021917971317662216_016_00029950108064592316_115_00001224744871391589_0,
  116_00018023220150528307_116_00016887696293784618_116_00011589789296456174_016_00007837829901619122_117_00014062630726427813_116_00003338886116348349_015_00000816496580927726_0,
  116_00017023299477975316_116_00015539678581673662_117_00036132228415403655_015_00001265302894934183_117_00010920494489934053_116_00003338886116348349_115_00001224744871391589_0,
  116_00017523259814251813_116_00016213687437728947_016_00003805541763381331_116_00006507450594721428_118_00062072901351934134_116_00003338886116348349_015_00000816496580927726_0,
  116_00017523259814251813_116_00016213687437728947_115_00000690425375650563_017_00042264306158271003_117_00003065153898699653_116_00003338886116348349_015_00000816496580927726_0,
  116_00017023299477975316_116_00016213687437728947_016_00007375473603343651_116_00011222332995616573_019_00007698233779410749_116_00003338886116348349_015_00000816496580927726_0,
  116_00017023299477975316_116_00015539678581673662_016_00000960752328411357_117_00022941514279640599_017_00003219118574287868_116_00003338886116348349_015_00000816496580927726_0,
  116_00016523339141699105_116_00015539678581673662_015_00002165520096319293_116_00016137848690166836_017_00006361254810781627_116_00003338886116348349_015_00000816496580927726_0,
  116_00016523339141699105_116_00015539678581673662_016_00003247739913387218_116_00007911883650307214_017_00009503391047275388_116_00003338886116348349_115_00001224744871391589_0,
  116_00016023378805422608_116_00014865669725617991_017_00049211454633695556_116_00009516949999548118_016_00001421659540201603_016_00029950108064592316_115_00001224744871391589_0,
  116_00016023378805422608_116_00014865669725617991_116_00003278541731543898_117_00005887684318956068_016_00002207193599325043_116_00003338886116348349_015_00000816496580927726_0,
  116_00016023378805422608_116_00014865669725617991_017_00014627739934060582_117_00004884517850680491_016_00002521407222974419_116_00003338886116348349_015_00000816496580927726_0,
  116_00016023378805422608_116_00014865669725617991_017_00019090154734013484_117_00035982678367222964_016_00002835620846623795_116_00003338886116348349_015_00000816496580927726_0,
  116_00016523339141699105_116_00014865669725617991_017_00036939813933825083_116_00008714416824927665_016_00003149834470273171_116_00003338886116348349_015_00000816496580927726_0,
  116_00016523339141699105_116_00014191660869562706_016_00018698851158224135_116_00018746081507683297_016_00003464048093922547_116_00003338886116348349_115_00001224744871391589_0,
  116_00016523339141699105_116_00014191660869562706_116_00006402232091510928_016_00013856828711272502_016_00003935368529396611_016_00029950108064592316_115_00001224744871391589_0,
  116_00016523339141699105_116_00014191660869562706_116_00006625352831508573_015_00001014511277865292_016_00004720902588520051_116_00003338886116348349_015_00000816496580927726_0,
  116_00016023378805422608_116_00014191660869562706_116_00009302801711480313_016_00009041629663549801_016_00005035116212169427_116_00003338886116348349_015_00000816496580927726_0,
  116_00016023378805422608_116_00014865669725617991_016_00006985012308347772_116_00007209667122514325_016_00005349329835818804_116_00003338886116348349_115_00001224744871391589_0,
  116_00016023378805422608_116_00014191660869562706_116_00007238934866502097_016_00004326747262654651_016_00005820650271292868_116_00003338886116348349_115_00001224744871391589_0,
  116_00016023378805422608_116_00014191660869562706_015_00000999714229831598_116_00014833732281408603_016_00006291970706766932_116_00003338886116348349_015_00000816496580927726_0,
  116_00015523418469146397_116_00014865669725617991_018_00029139010841842207_017_00003140813895523986_016_00006606184330416307_116_00003338886116348349_115_00001224744871391589_0,
  116_00015523418469146397_116_00014865669725617991_116_00004059464321535655_016_00005731180318240445_016_00007077504765890371_116_00003338886116348349_015_00000816496580927726_0,
  116_00016023378805422608_116_00014865669725617991_116_00008075637641493265_016_00007737513254791571_016_00007391718389539748_116_00003338886116348349_015_00000816496580927726_0,
  116_00015523418469146397_116_00014865669725617991_016_00016802324868244152_116_00015435632162373938_016_00007705932013189124_116_00003338886116348349_115_00001224744871391589_0,
  116_00015523418469146397_116_00014865669725617991_116_00003445882286542132_117_00027957346621018414_016_00008177252448663187_116_00003338886116348349_115_00001224744871391589_0,
  116_00015523418469146397_116_00014865669725617991_116_00006346451906511517_016_00009141946310377358_016_00008648572884137251_116_00003338886116348349_015_00000816496580927726_0,
  114_00000150234581328699_116_00014191660869562706_115_00000696003394150504_016_00006232763552378227_016_00008962786507786628_116_00003338886116348349_115_00001224744871391589_0,
  114_00000150234581328699_116_00014865669725617991_115_00000696003394150504_016_00007536879961136456_016_00009434106943260692_116_00003338886116348349_015_00000816496580927726_0,
  114_00000150234581328699_116_00014191660869562706_016_00003136179543388396_116_00008313150237617443_016_00009748320566910068_116_00003338886116348349_015_00000816496580927726_0,
  116_00015523418469146397_116_00014865669725617991_116_00010808866706464417_016_00014559045239065398_016_00010062534190559445_016_00029950108064592316_115_00001224744871391589_0,
  116_00015523418469146397_116_00015539678581673662_016_00006371430273354248_117_00040998510708600777_016_00010848068249682883_116_00003338886116348349_015_00000816496580927726_0,
  116_00016023378805422608_116_00016213687437728947_017_00004587306634166558_117_00034979511898947385_015_00001116228187333226_116_00003338886116348349_015_00000816496580927726_0,
  116_00015523418469146397_116_00015539678581673662_016_00006538770828352481_116_00009216000059065448_016_00011476495496981636_016_00029950108064592316_115_00001224744871391589_0,
  114_00000150234581328699_116_00015539678581673662_016_00010722284703308325_116_00011523282936099244_016_00012262029556105076_116_00003338886116348349_015_00000816496580927726_0,
  114_00000150234581328699_116_00014865669725617991_015_00001312083265828301_116_00012024866170237025_016_00012576243179754452_116_00003338886116348349_015_00000816496580927726_0,
  114_00000150234581328699_116_00014865669725617991_117_00009915541465680366_018_00021376474272484798_016_00012890456803403827_116_00003338886116348349_015_00000816496580927726_0,
  116_00014523497796593405_116_00014191660869562706_116_00006625352831508573_118_00018750184458538297_016_00013204670427053204_016_00029950108064592316_115_00001224744871391589_0,
  114_00000150234581328699_116_00014865669725617991_016_00008044835823336586_116_00007711250356652106_016_00013990204486176645_116_00003338886116348349_015_00000816496580927726_0,
  114_00000150234581328699_116_00015539678581673662_117_00022744984015544953_016_00007135613373826232_015_00001430441810982602_116_00003338886116348349_115_00001224744871391589_0,
  114_00000150234581328699_116_00014865669725617991_116_00008577659306487967_016_00016465061528788967_016_00014775738545300083_116_00003338886116348349_015_00000816496580927726_1,
  114_00000150234581328699_116_00014191660869562706_116_00004673046356529179_016_00009041629663549801_015_00001508995216894946_116_00003338886116348349_015_00000816496580927726_0,
  116_00015523418469146397_116_00014865669725617991_017_00005702910334154783_117_00042001677176876356_016_00015404165792598836_016_00029950108064592316_115_00001224744871391589_1,
  116_00015523418469146397_116_00014865669725617991_116_00008187198011492087_016_00003925480675344427_116_00016959837443286896_116_00003338886116348349_115_00001224744871391589_0,
  116_00015523418469146397_116_00015539678581673662_015_00002617339594814524_115_00002255811408713044_115_00001648851700781283_116_00003338886116348349_115_00001224744871391589_0,
  116_00015523418469146397_116_00015539678581673662_116_00004171024691534478_017_00014175645046555194_116_00016017196572338768_116_00003338886116348349_015_00000816496580927726_0,
  114_00000150234581328699_116_00015539678581673662_116_00005119287836524469_016_00006433396846033335_115_00001570298294868939_116_00003338886116348349_015_00000816496580927726_0,
  116_00015523418469146397_116_00016213687437728947_016_00008156396193335408_116_00008012200297134773_116_00015388769325040015_116_00003338886116348349_115_00001224744871391589_0,
  116_00016023378805422608_116_00016887696293784618_116_00005342408576522114_117_00007894017255507152_115_00001491744888956595_116_00003338886116348349_115_00001224744871391589_0,
  116_00015523418469146397_116_00016887696293784618_116_00010306845041469714_016_00004427063909482209_116_00014446128454091887_116_00003338886116348349_015_00000816496580927726_0,
  116_00015523418469146397_116_00016887696293784618_015_00006594466785272546_116_00030784079126990056_116_00014131914830442511_116_00003338886116348349_015_00000816496580927726_1,
  114_00000150234581328699_116_00016213687437728947_016_00007877495268338351_117_00042001677176876356_116_00013817701206793134_116_00003338886116348349_015_00000816496580927726_0,
  116_00015523418469146397_116_00016887696293784618_116_00007908297086495032_016_00008339413135756903_116_00013503487583143758_016_00029950108064592316_115_00001224744871391589_0,
  116_00015523418469146397_116_00017561705149840288_117_00009915541465680366_117_00020935181343089515_116_00012717953524020318_116_00003338886116348349_115_00001224744871391589_0,
  116_00016023378805422608_116_00017561705149840288_117_00037247832115391877_016_00003925480675344427_116_00012246633088546255_116_00003338886116348349_115_00001224744871391589_0]

/-- lr/data.csv 1102-1201 -/
def dataCsv11 : List ℕ := [
  116_00016023378805422608_116_00016887696293784618_016_00008714198043329521_116_00010018533233685898_115_00001177531265307219_016_00029950108064592316_115_00001224744871391589_0,
  116_00016523339141699105_116_00016887696293784618_016_00003805541763381331_115_00000640713394789387_116_00010989778593948751_016_00029950108064592316_115_00001224744871391589_0,
  116_00016023378805422608_116_00016887696293784618_116_00010697306336465593_016_00014859995179548064_115_00001020424453482531_116_00003338886116348349_015_00000816496580927726_0,
  116_00016523339141699105_116_00017561705149840288_019_00068269368420777075_117_00012909849596884967_116_00009890030911175934_116_00003338886116348349_115_00001224744871391589_0,
  116_00017023299477975316_116_00017561705149840288_116_00008354538566490322_016_00002721680913413756_115_00000941871047570187_116_00003338886116348349_015_00000816496580927726_0,
  116_00017023299477975316_116_00016887696293784618_015_00001088962525830656_116_00013028032638512588_116_00009104496852052494_116_00003338886116348349_115_00001224744871391589_0,
  116_00016523339141699105_116_00016213687437728947_019_00068269368420777075_117_00013913016065160544_115_00000863317641657843_116_00003338886116348349_015_00000816496580927726_0,
  116_00016523339141699105_116_00016887696293784618_117_00013262352565645041_017_00021197810324484165_116_00008318962792929054_116_00003338886116348349_115_00001224744871391589_0,
  116_00017023299477975316_116_00017561705149840288_117_00019398172915580278_016_00005831496965067996_115_00000784764235745499_116_00003338886116348349_015_00000816496580927726_0,
  116_00017023299477975316_116_00016887696293784618_017_00010165325134107683_117_00049023842454805255_116_00007533428733805614_116_00003338886116348349_015_00000816496580927726_0,
  116_00017523259814251813_116_00017561705149840288_116_00013765216511433214_015_00001255271230251427_116_00007219215110156237_116_00003338886116348349_015_00000816496580927726_0,
  116_00017523259814251813_116_00017561705149840288_116_00005955990611515638_016_00009242262957204916_116_00006905001486506862_016_00029950108064592316_115_00001224744871391589_0,
  116_00017523259814251813_116_00017561705149840288_115_00001052996578146736_015_00001566252835416852_116_00006119467427383422_116_00003338886116348349_115_00001224744871391589_0,
  116_00017023299477975316_116_00017561705149840288_015_00001401331561827359_116_00014231832400443263_116_00005648146991909357_116_00003338886116348349_115_00001224744871391589_0,
  116_00018023220150528307_116_00018235714005895574_019_00068269368420777075_116_00002595101368446733_116_00005176826556435293_016_00029950108064592316_115_00001224744871391589_0,
  116_00018023220150528307_116_00018235714005895574_016_00030022228713104617_116_00020953047737889534_116_00004391292497311854_116_00003338886116348349_115_00001224744871391589_0,
  116_00018023220150528307_116_00018235714005895574_116_00002888080436548019_117_00024947847216191754_115_00000391997206183779_116_00003338886116348349_015_00000816496580927726_0,
  116_00017523259814251813_116_00017561705149840288_117_00008799937765692141_017_00007153479768626296_117_00036057584381884134_116_00003338886116348349_015_00000816496580927726_0,
  116_00017523259814251813_116_00016887696293784618_116_00005342408576522114_017_00018188310919657433_117_00032915448145390375_116_00003338886116348349_015_00000816496580927726_0,
  116_00017523259814251813_116_00016887696293784618_116_00011087767631461474_015_00001917361099313299_117_00029773311908896616_116_00003338886116348349_015_00000816496580927726_0,
  116_00017023299477975316_116_00015539678581673662_016_00006427210458353659_116_00009015366765410335_117_00026631175672402857_016_00029950108064592316_115_00001224744871391589_0,
  116_00017023299477975316_116_00016213687437728947_117_00044499256165315343_018_00021376474272484798_117_00018775835081168454_116_00003338886116348349_015_00000816496580927726_0,
  116_00017523259814251813_116_00016213687437728947_018_00012404955342018832_117_00014916182533436123_117_00015633698844674693_116_00003338886116348349_015_00000816496580927726_0,
  116_00017023299477975316_116_00015539678581673662_116_00008521879121488555_016_00022383743691614786_117_00012491562608180934_016_00029950108064592316_115_00001224744871391589_1,
  116_00016523339141699105_116_00014865669725617991_116_00015661742801413194_016_00029104959029061064_118_00046362220169465326_116_00003338886116348349_115_00001224744871391589_1,
  116_00016523339141699105_116_00014865669725617991_116_00009135461156482079_016_00011449229187411152_019_00007698233779410749_116_00003338886116348349_115_00001224744871391589_0,
  116_00016023378805422608_116_00014191660869562706_016_00009327780078323045_116_00009216000059065448_017_00004790186692534748_116_00003338886116348349_015_00000816496580927726_0,
  116_00016523339141699105_116_00014865669725617991_016_00007431253788343062_116_00007610933709824549_017_00007932322929028508_116_00003338886116348349_115_00001224744871391589_0,
  116_00016023378805422608_116_00014191660869562706_016_00016969665423242386_116_00014833732281408603_017_00012645527283769148_116_00003338886116348349_115_00001224744871391589_0,
  116_00016523339141699105_116_00014191660869562706_016_00008435297118332464_116_00010419799820996123_016_00001735873163850979_116_00003338886116348349_015_00000816496580927726_0,
  116_00016023378805422608_116_00014191660869562706_116_00007015814126504452_016_00006533713492860893_016_00002050086787500355_116_00003338886116348349_015_00000816496580927726_0,
  116_00016023378805422608_116_00014191660869562706_116_00002776520066549197_116_00006607767241548985_016_00002364300411149731_116_00003338886116348349_015_00000816496580927726_0,
  116_00016023378805422608_116_00014191660869562706_115_00001493660039642085_016_00021480893870166784_016_00002678514034799107_116_00003338886116348349_015_00000816496580927726_0,
  116_00016023378805422608_116_00014191660869562706_116_00006736913201507395_015_00000793814654844668_016_00002992727658448483_116_00003338886116348349_115_00001224744871391589_0,
  116_00015523418469146397_116_00014865669725617991_116_00006290671721512106_015_00001074701265961826_016_00003464048093922547_116_00003338886116348349_115_00001224744871391589_0,
  116_00015523418469146397_116_00014191660869562706_118_00021063155657627917_117_00007894017255507152_016_00003935368529396611_116_00003338886116348349_015_00000816496580927726_0,
  116_00015523418469146397_116_00014865669725617991_017_00010165325134107683_116_00001892884840653836_016_00004249582153045987_116_00003338886116348349_015_00000816496580927726_0,
  116_00015523418469146397_116_00014865669725617991_016_00006371430273354248_116_00010319483174168569_016_00004563795776695363_116_00003338886116348349_015_00000816496580927726_0,
  116_00015523418469146397_116_00014191660869562706_116_00005788650056517404_016_00001618197798310635_017_00048780094003447394_116_00003338886116348349_015_00000816496580927726_0,
  114_00000150234581328699_116_00014191660869562706_017_00016858947334037033_116_00006708083888376544_016_00005192223023994115_116_00003338886116348349_115_00001224744871391589_0,
  116_00015523418469146397_116_00014191660869562706_116_00008577659306487967_016_00004828330496792433_016_00005663543459468179_116_00003338886116348349_115_00001224744871391589_0,
  114_00000150234581328699_116_00014191660869562706_016_00005367386943364846_116_00008413466884444997_016_00006134863894942243_116_00003338886116348349_015_00000816496580927726_0,
  116_00015523418469146397_116_00014191660869562706_116_00006458012276510339_016_00003925480675344427_016_00006449077518591619_116_00003338886116348349_015_00000816496580927726_0,
  114_00000150234581328699_116_00014191660869562706_116_00003334321916543309_117_00007894017255507152_016_00006763291142240996_116_00003338886116348349_015_00000816496580927726_0,
  114_00000150234581328699_116_00014191660869562706_116_00013542095771435567_016_00029205275675888616_016_00007077504765890371_116_00003338886116348349_015_00000816496580927726_1,
  114_00000150234581328699_116_00014865669725617991_017_00007934117734131232_116_00006708083888376544_016_00007391718389539748_116_00003338886116348349_015_00000816496580927726_0,
  114_00000150234581328699_116_00014191660869562706_117_00005453126665727467_016_00002220097679275974_016_00007705932013189124_116_00003338886116348349_015_00000816496580927726_0,
  116_00014523497796593405_116_00013517652013507035_016_00008435297118332464_116_00014432465694098375_016_00008020145636838499_116_00003338886116348349_115_00001224744871391589_0,
  116_00014523497796593405_116_00013517652013507035_116_00010641526151466183_015_00001807012787802987_016_00008491466072312563_116_00003338886116348349_015_00000816496580927726_0,
  116_00014023537460317193_116_00012843643157451365_116_00005175068021523881_117_00014916182533436123_015_00000880567969596194_116_00003338886116348349_015_00000816496580927726_0,
  116_00014523497796593405_116_00014191660869562706_116_00004617266171529768_016_00010044796131825364_016_00009119893319611315_116_00003338886116348349_015_00000816496580927726_0,
  114_00000150234581328699_116_00014191660869562706_115_00001052996578146736_016_00007737513254791571_016_00009434106943260692_116_00003338886116348349_015_00000816496580927726_0,
  116_00014523497796593405_116_00014191660869562706_116_00001772476736559794_117_00016922515469987276_016_00009748320566910068_116_00003338886116348349_015_00000816496580927726_0,
  114_00000150234581328699_116_00014191660869562706_116_00005063507651525058_016_00005630863671412888_016_00010062534190559445_016_00029950108064592316_115_00001224744871391589_0,
  116_00015523418469146397_116_00014191660869562706_017_00048653652783701445_116_00010118849880513456_016_00010848068249682883_116_00003338886116348349_015_00000816496580927726_0,
  114_00000150234581328699_116_00014191660869562706_015_00001713700597824062_115_00001272708269802992_015_00001116228187333226_016_00029950108064592316_115_00001224744871391589_0,
  114_00000150234581328699_116_00014865669725617991_116_00007517835791499152_017_00007153479768626296_014_00000119478159324557_016_00029950108064592316_115_00001224744871391589_0,
  114_00000150234581328699_116_00014865669725617991_017_00024668173233954607_117_00027957346621018414_015_00001273334999157914_116_00003338886116348349_015_00000816496580927726_0,
  114_00000150234581328699_116_00014191660869562706_116_00005732869871517993_016_00007737513254791571_016_00013047563615228517_116_00003338886116348349_015_00000816496580927726_0,
  114_00000150234581328699_116_00014865669725617991_016_00003917102133380153_117_00044008010113427437_016_00013361777238877892_116_00003338886116348349_015_00000816496580927726_0,
  114_00000150234581328699_116_00015539678581673662_016_00016467643758247685_115_00001623816533699439_016_00013675990862527267_016_00029950108064592316_115_00001224744871391589_0,
  114_00000150234581328699_116_00014865669725617991_116_00012426492071447344_015_00002128026057651167_016_00014461524921650708_116_00003338886116348349_015_00000816496580927726_1,
  116_00015523418469146397_116_00014865669725617991_116_00007740956531496798_016_00017167278056581863_016_00014775738545300083_116_00003338886116348349_015_00000816496580927726_1,
  116_00015523418469146397_116_00014191660869562706_116_00009581702636477369_016_00007135613373826232_015_00001508995216894946_116_00003338886116348349_015_00000816496580927726_0,
  116_00014523497796593405_116_00012843643157451365_016_00012005228958294785_116_00009717583293203229_016_00015404165792598836_116_00003338886116348349_015_00000816496580927726_0,
  116_00014523497796593405_116_00012843643157451365_116_00002888080436548019_116_00005403967479618307_016_00015718379416248212_116_00003338886116348349_015_00000816496580927726_0,
  116_00014523497796593405_116_00012843643157451365_117_00018282569215592054_117_00022941514279640599_015_00001603259303989759_116_00003338886116348349_115_00001224744871391589_0,
  114_00000150234581328699_116_00012843643157451365_116_00009860603561474425_015_00001255271230251427_016_00016503913475371652_116_00003338886116348349_015_00000816496580927726_1,
  116_00014523497796593405_116_00012843643157451365_016_00002522597508394872_117_00031970012494120725_016_00016818127099021027_116_00003338886116348349_015_00000816496580927726_0,
  114_00000150234581328699_116_00012843643157451365_116_00010251064856470304_016_00003724847381689319_016_00017132340722670405_116_00003338886116348349_015_00000816496580927726_0,
  116_00014523497796593405_116_00012843643157451365_015_00001585406172325416_116_00015736582102856609_015_00001744655434631978_116_00003338886116348349_115_00001224744871391589_0,
  114_00000150234581328699_116_00012843643157451365_117_00012146748865656816_017_00014175645046555194_016_00017917874781793846_016_00029950108064592316_115_00001224744871391589_0,
  116_00014523497796593405_116_00012843643157451365_116_00005175068021523881_117_00033976345430671806_016_00018703408840917284_116_00003338886116348349_015_00000816496580927726_0,
  116_00014523497796593405_116_00013517652013507035_017_00011280928834095907_116_00001190668312860946_016_00019017622464566661_016_00029950108064592316_115_00001224744871391589_0,
  116_00014523497796593405_116_00012843643157451365_116_00010418405411468539_016_00004427063909482209_116_00016959837443286896_116_00003338886116348349_115_00001224744871391589_0,
  116_00014023537460317193_115_00001149562544534041_017_00021879163983984046_117_00021938347811365091_115_00001648851700781283_116_00003338886116348349_115_00001224744871391589_0,
  116_00014023537460317193_115_00001149562544534041_116_00006123331166513871_017_00020194643856208588_116_00016017196572338768_116_00003338886116348349_115_00001224744871391589_0,
  116_00014023537460317193_115_00001149562544534041_016_00003638201208383097_117_00005887684318956068_116_00015545876136864702_116_00003338886116348349_115_00001224744871391589_0,
  116_00013523577124040698_116_00010147607733229451_115_00000785251690149562_016_00020477727401891217_115_00001507455570139064_116_00003338886116348349_015_00000816496580927726_0,
  116_00013523577124040698_116_00010821616589285121_116_00005453968946520936_016_00003423897441206646_116_00014760342077741262_116_00003338886116348349_015_00000816496580927726_0,
  116_00013523577124040698_116_00010821616589285121_117_00004337522965739242_117_00044008010113427437_116_00014446128454091887_016_00029950108064592316_115_00001224744871391589_0,
  116_00014023537460317193_115_00001149562544534041_116_00008912340416484434_016_00012151445715204048_116_00013660594394968446_116_00003338886116348349_015_00000816496580927726_0,
  116_00013523577124040698_115_00001149562544534041_116_00007183154681502685_016_00008138779842101795_115_00001334638077131907_116_00003338886116348349_015_00000816496580927726_0,
  116_00013523577124040698_116_00010821616589285121_117_00014377956265633265_017_00005147146832075141_116_00013032167147669695_116_00003338886116348349_015_00000816496580927726_0,
  116_00013523577124040698_116_00010147607733229451_117_00023302785865539066_016_00007536879961136456_116_00012717953524020318_116_00003338886116348349_015_00000816496580927726_0,
  116_00013523577124040698_116_00010821616589285121_116_00002664959696550374_016_00006533713492860893_116_00012403739900370943_116_00003338886116348349_015_00000816496580927726_0,
  116_00013523577124040698_116_00010821616589285121_116_00006792693386506806_016_00007837829901619122_116_00012089526276721567_116_00003338886116348349_015_00000816496580927726_0,
  116_00013023616787764485_116_00009473598877173782_117_00009357739615686254_116_00001993201487481394_115_00001177531265307219_116_00003338886116348349_115_00001224744871391589_0,
  116_00013523577124040698_116_00010821616589285121_116_00011143547816460884_016_00012151445715204048_116_00011303992217598127_116_00003338886116348349_015_00000816496580927726_0,
  116_00014023537460317193_115_00001149562544534041_016_00014236436358271234_116_00012526449404374806_116_00010989778593948751_116_00003338886116348349_115_00001224744871391589_0,
  116_00014023537460317193_116_00010821616589285121_117_00043941454315321227_017_00021197810324484165_116_00010518458158474686_116_00003338886116348349_015_00000816496580927726_0,
  116_00014023537460317193_115_00001149562544534041_016_00013232393028281833_116_00012024866170237025_115_00001020424453482531_116_00003338886116348349_115_00001224744871391589_0,
  116_00014023537460317193_115_00001149562544534041_116_00006011770796515049_016_00003724847381689319_116_00009732924099351247_116_00003338886116348349_115_00001224744871391589_0,
  116_00014523497796593405_115_00001216963430139608_116_00010697306336465593_016_00010847329306445812_116_00009261603663877183_116_00003338886116348349_015_00000816496580927726_0,
  114_00000150234581328699_116_00012843643157451365_116_00001772476736559794_015_00000312294750072398_116_00008947390040227806_116_00003338886116348349_115_00001224744871391589_0,
  114_00000150234581328699_116_00013517652013507035_116_00007294715051501508_015_00000793814654844668_116_00008476069604753742_116_00003338886116348349_115_00001224744871391589_0,
  114_00000150234581328699_116_00014191660869562706_117_00025533993265515514_115_00000530365083279075_116_00008004749169279678_116_00003338886116348349_115_00001224744871391589_0,
  116_00015523418469146397_116_00014191660869562706_116_00005453968946520936_016_00007637196607964014_116_00007533428733805614_116_00003338886116348349_115_00001224744871391589_0,
  116_00015523418469146397_116_00014191660869562706_017_00010165325134107683_117_00034979511898947385_115_00000706210829833155_016_00029950108064592316_115_00001224744871391589_0,
  116_00015523418469146397_116_00014191660869562706_016_00024555770583162317_116_00019648931329131307_115_00000627657423920811_116_00003338886116348349_115_00001224744871391589_0]

/-- lr/data.csv 1202-1301 -/
def dataCsv12 : List ℕ := [
  116_00015523418469146397_116_00013517652013507035_115_00000606755098151446_016_00015963478294651186_116_00005805253803734046_116_00003338886116348349_115_00001224744871391589_0,
  116_00015523418469146397_116_00013517652013507035_016_00006650331198351305_017_00010162979173452956_116_00005333933368259982_116_00003338886116348349_015_00000816496580927726_0,
  114_00000150234581328699_116_00012843643157451365_116_00010251064856470304_016_00011449229187411152_116_00005019719744610606_116_00003338886116348349_115_00001224744871391589_0,
  114_00000150234581328699_116_00012843643157451365_116_00007183154681502685_016_00007637196607964014_117_00045483993091365416_016_00029950108064592316_115_00001224744871391589_0,
  116_00015523418469146397_116_00013517652013507035_117_00009915541465680366_116_00005504284126445864_117_00037628652500131016_116_00003338886116348349_015_00000816496580927726_0,
  116_00016023378805422608_116_00013517652013507035_116_00009358581896479724_016_00014559045239065398_117_00034486516263637257_116_00003338886116348349_015_00000816496580927726_0,
  116_00015523418469146397_116_00013517652013507035_115_00001231493170144852_016_00013555878770789835_115_00000313443800271435_016_00029950108064592316_115_00001224744871391589_0,
  114_00000150234581328699_116_00012843643157451365_017_00019090154734013484_116_00005103017539135641_117_00023489039435909095_116_00003338886116348349_115_00001224744871391589_0,
  114_00000150234581328699_116_00012843643157451365_116_00002776520066549197_016_00004126113968999543_117_00018775835081168454_116_00003338886116348349_015_00000816496580927726_0,
  114_00000150234581328699_116_00012843643157451365_015_00005584845436783203_114_00000267714132538878_117_00015633698844674693_016_00029950108064592316_115_00001224744871391589_0,
  114_00000150234581328699_116_00012843643157451365_118_00009907118657745668_117_00009900350192058306_117_00007778358253440293_116_00003338886116348349_015_00000816496580927726_0,
  116_00015523418469146397_116_00013517652013507035_116_00006848473571506217_016_00006934980080171117_118_00046362220169465326_016_00029950108064592316_115_00001224744871391589_0,
  116_00015523418469146397_116_00014191660869562706_116_00010027944116472658_016_00016565378175616523_017_00003219118574287868_116_00003338886116348349_015_00000816496580927726_0,
  116_00016023378805422608_116_00014865669725617991_017_00006818514034143008_117_00010903516660333884_017_00006361254810781627_116_00003338886116348349_115_00001224744871391589_0,
  116_00016023378805422608_116_00014865669725617991_015_00000865841785833011_116_00007009033828859209_017_00011074459165522269_116_00003338886116348349_115_00001224744871391589_0,
  116_00016023378805422608_116_00014191660869562706_016_00009495120633321278_114_00000116235995829268_016_00001578766352026291_116_00003338886116348349_015_00000816496580927726_0,
  116_00015523418469146397_116_00013517652013507035_117_00013820154415639155_017_00010162979173452956_017_00018929799756756668_116_00003338886116348349_015_00000816496580927726_0,
  114_00000150234581328699_116_00012843643157451365_116_00004673046356529179_016_00003524214088034203_016_00002207193599325043_116_00003338886116348349_015_00000816496580927726_0,
  114_00000150234581328699_115_00001216963430139608_016_00009104659338325399_116_00009316316705893005_016_00002521407222974419_116_00003338886116348349_115_00001224744871391589_0,
  116_00015523418469146397_116_00012843643157451365_116_00010139504486471482_017_00018188310919657433_016_00002992727658448483_116_00003338886116348349_115_00001224744871391589_0,
  114_00000150234581328699_115_00001216963430139608_017_00021321362133989932_116_00010620433114651238_016_00003464048093922547_116_00003338886116348349_015_00000816496580927726_0,
  114_00000150234581328699_115_00001149562544534041_116_00007796736716496209_016_00006433396846033335_016_00003778261717571923_116_00003338886116348349_115_00001224744871391589_0,
  114_00000150234581328699_115_00001149562544534041_116_00007796736716496209_016_00019073294346305432_016_00004249582153045987_116_00003338886116348349_015_00000816496580927726_0,
  114_00000150234581328699_115_00001149562544534041_116_00002609179511550963_016_00008138779842101795_016_00004563795776695363_116_00003338886116348349_015_00000816496580927726_0,
  116_00014523497796593405_115_00001149562544534041_016_00012507250623289485_116_00014332149047270821_017_00048780094003447394_116_00003338886116348349_015_00000816496580927726_0,
  116_00014523497796593405_115_00001149562544534041_116_00002609179511550963_017_00015178811514830773_016_00005192223023994115_016_00029950108064592316_115_00001224744871391589_0,
  116_00014523497796593405_116_00010821616589285121_116_00002832300251548608_015_00000252104761975864_016_00005977757083117555_116_00003338886116348349_015_00000816496580927726_0,
  116_00014523497796593405_116_00010821616589285121_115_00000651379246150975_017_00021197810324484165_016_00006291970706766932_116_00003338886116348349_015_00000816496580927726_0,
  116_00014523497796593405_116_00010821616589285121_017_00024668173233954607_117_00017925681938262783_016_00006606184330416307_116_00003338886116348349_115_00001224744871391589_0,
  116_00014523497796593405_116_00010821616589285121_116_00013095854291440279_016_00013555878770789835_016_00007077504765890371_116_00003338886116348349_015_00000816496580927726_0,
  116_00014523497796593405_116_00010821616589285121_014_00000190335322682206_115_00001653911527747706_016_00007391718389539748_116_00003338886116348349_115_00001224744871391589_0,
  116_00014023537460317193_116_00010147607733229451_016_00003638201208383097_017_00007153479768626296_016_00007863038825013812_116_00003338886116348349_115_00001224744871391589_0,
  116_00014023537460317193_116_00009473598877173782_116_00002162938031555673_117_00028960513089293993_016_00008334359260487876_116_00003338886116348349_015_00000816496580927726_0,
  116_00014023537460317193_116_00010147607733229451_116_00009749043191475603_015_00001566252835416852_016_00008648572884137251_116_00003338886116348349_115_00001224744871391589_0,
  116_00014023537460317193_116_00010147607733229451_014_00000502704358678909_116_00026069196726094908_016_00009119893319611315_016_00029950108064592316_115_00001224744871391589_0,
  116_00014523497796593405_116_00010821616589285121_016_00006427210458353659_116_00008614100178100111_016_00009905427378734756_016_00029950108064592316_115_00001224744871391589_0,
  116_00014523497796593405_116_00010821616589285121_116_00010027944116472658_015_00000663403013968845_016_00010690961437858195_016_00029950108064592316_115_00001224744871391589_0,
  116_00014523497796593405_116_00010821616589285121_117_00020513776615568505_117_00026954180152742907_016_00011476495496981636_116_00003338886116348349_115_00001224744871391589_0,
  116_00014523497796593405_116_00010821616589285121_017_00042517832433766206_116_00007410300416169433_014_00000119478159324557_116_00003338886116348349_115_00001224744871391589_0,
  116_00014023537460317193_116_00010147607733229451_117_00031669813615450754_117_00006890850787231645_016_00012419136367929764_016_00029950108064592316_115_00001224744871391589_0,
  116_00014023537460317193_116_00009473598877173782_016_00005423167128364257_116_00008714416824927665_016_00013204670427053204_116_00003338886116348349_015_00000816496580927726_0,
  116_00014523497796593405_116_00010147607733229451_016_00004586464353373088_116_00007610933709824549_015_00001351888405070258_116_00003338886116348349_115_00001224744871391589_0,
  116_00014523497796593405_116_00010821616589285121_116_00003947903951536833_016_00004427063909482209_016_00013990204486176645_116_00003338886116348349_015_00000816496580927726_0,
  116_00014523497796593405_116_00010821616589285121_116_00005955990611515638_016_00013455562123962277_015_00001430441810982602_116_00003338886116348349_115_00001224744871391589_0,
  116_00014523497796593405_116_00010821616589285121_015_00001044338377831127_114_00000116235995829268_016_00014775738545300083_116_00003338886116348349_015_00000816496580927726_0,
  116_00014523497796593405_116_00010821616589285121_016_00002745718248392517_116_00006607767241548985_015_00001508995216894946_116_00003338886116348349_115_00001224744871391589_0,
  116_00014023537460317193_116_00010147607733229451_016_00006371430273354248_116_00006708083888376544_016_00015561272604423524_016_00029950108064592316_115_00001224744871391589_0,
  116_00014023537460317193_116_00010147607733229451_117_00014377956265633265_016_00002922314207068864_016_00016346806663546964_116_00003338886116348349_015_00000816496580927726_0,
  116_00014023537460317193_116_00009473598877173782_116_00002776520066549197_018_00021376474272484798_015_00001666102028719634_116_00003338886116348349_015_00000816496580927726_0,
  116_00013523577124040698_116_00008799590021118496_116_00004003684136536244_117_00031970012494120725_016_00016975233910845717_116_00003338886116348349_015_00000816496580927726_0,
  116_00013523577124040698_116_00008799590021118496_017_00005702910334154783_117_00038992177772049624_016_00017289447534495093_116_00003338886116348349_015_00000816496580927726_0,
  116_00013023616787764485_116_00008125581165062826_116_00010027944116472658_016_00008740679723067134_016_00017603661158144468_116_00003338886116348349_115_00001224744871391589_0,
  115_00001252365645148799_116_00008125581165062826_118_00032219192657510165_017_00015178811514830773_016_00018074981593618533_116_00003338886116348349_015_00000816496580927726_0,
  115_00001252365645148799_116_00008125581165062826_116_00012816953366443222_015_00001736791135023697_116_00016959837443286896_116_00003338886116348349_015_00000816496580927726_0,
  115_00001252365645148799_116_00008125581165062826_115_00000606755098151446_016_00009442896250860024_116_00016645623819637518_016_00029950108064592316_115_00001224744871391589_0,
  115_00001252365645148799_116_00007451572309007539_116_00006681133016507984_015_00001074701265961826_116_00015860089760514078_016_00029950108064592316_115_00001224744871391589_0,
  115_00001252365645148799_116_00007451572309007539_118_00021063155657627917_117_00022941514279640599_115_00001507455570139064_116_00003338886116348349_115_00001224744871391589_0,
  115_00001252365645148799_116_00007451572309007539_116_00004059464321535655_016_00003022630853896422_116_00014603235265916574_116_00003338886116348349_015_00000816496580927726_0,
  115_00001252365645148799_116_00007451572309007539_116_00006234891536512694_016_00010446062719135587_114_00000142890216422672_116_00003338886116348349_015_00000816496580927726_0,
  115_00001252365645148799_116_00007451572309007539_116_00014434578731426149_016_00008540046429412019_116_00013974808018617824_116_00003338886116348349_115_00001224744871391589_0,
  116_00012023696115211493_115_00000677756345295187_118_00060109285157215794_116_00006206500654238761_116_00013503487583143758_116_00003338886116348349_015_00000816496580927726_0,
  116_00012023696115211493_115_00000677756345295187_016_00019312433193217657_116_00014833732281408603_116_00013189273959494383_016_00029950108064592316_115_00001224744871391589_0,
  116_00011023775442658785_116_00005429545740840913_016_00006092529348357192_116_00007009033828859209_116_00012403739900370943_016_00029950108064592316_115_00001224744871391589_0,
  116_00011023775442658785_116_00005429545740840913_116_00007740956531496798_016_00016966644762926748_116_00011618205841247502_116_00003338886116348349_015_00000816496580927726_0,
  116_00011023775442658785_117_00047555368847852436_016_00039281739423006887_115_00002436381373002645_116_00011303992217598127_116_00003338886116348349_115_00001224744871391589_0,
  116_00010523815106382575_116_00004081528028729957_017_00010723126984101795_117_00043004843645151863_116_00010832671782124061_116_00003338886116348349_015_00000816496580927726_0,
  116_00010023854770106078_117_00027335103166186175_016_00005255826573366024_116_00005203334185963199_116_00010518458158474686_116_00003338886116348349_015_00000816496580927726_0,
  116_00009523894433829583_117_00027335103166186175_017_00005702910334154783_117_00012909849596884967_115_00001020424453482531_116_00003338886116348349_115_00001224744871391589_0,
  116_00010023854770106078_116_00003407519172674287_116_00002386058771553318_016_00005831496965067996_116_00009732924099351247_116_00003338886116348349_015_00000816496580927726_0,
  116_00009523894433829583_116_00003407519172674287_116_00004003684136536244_017_00018188310919657433_115_00000941871047570187_116_00003338886116348349_015_00000816496580927726_0,
  116_00010023854770106078_116_00004081528028729957_116_00014657699471423793_016_00025995142977406824_116_00009104496852052494_116_00003338886116348349_115_00001224744871391589_0,
  116_00010023854770106078_116_00004081528028729957_116_00002720739881549785_017_00005147146832075141_115_00000863317641657843_016_00029950108064592316_115_00001224744871391589_0,
  116_00010023854770106078_116_00004081528028729957_017_00012954334384078245_116_00001892884840653836_115_00000784764235745499_016_00029950108064592316_115_00001224744871391589_0,
  116_00009523894433829583_116_00004081528028729957_116_00007908297086495032_016_00008239096488929353_115_00000706210829833155_116_00003338886116348349_015_00000816496580927726_0,
  116_00009523894433829583_116_00003407519172674287_117_00004895324815733354_018_00021376474272484798_116_00006747894674682174_016_00029950108064592316_115_00001224744871391589_0,
  116_00009523894433829583_116_00004081528028729957_116_00009860603561474425_016_00007637196607964014_116_00005962360615558734_116_00003338886116348349_115_00001224744871391589_0,
  116_00009023934097553371_116_00004081528028729957_016_00008602637673330699_116_00005604600773273423_115_00000549104018008467_116_00003338886116348349_115_00001224744871391589_0,
  116_00009023934097553371_116_00004081528028729957_116_00007294715051501508_016_00006533713492860893_116_00005019719744610606_116_00003338886116348349_115_00001224744871391589_0,
  116_00009023934097553371_116_00004081528028729957_115_00000785251690149562_016_00012953978889824496_117_00045483993091365416_116_00003338886116348349_015_00000816496580927726_0,
  116_00008523973761276875_117_00027335103166186175_117_00004337522965739242_018_00011344809589729025_117_00042341856854871657_116_00003338886116348349_115_00001224744871391589_0,
  116_00008523973761276875_116_00003407519172674287_117_00009915541465680366_117_00028960513089293993_117_00037628652500131016_016_00029950108064592316_115_00001224744871391589_0,
  116_00008523973761276875_116_00003407519172674287_116_00006234891536512694_016_00014358411945410283_117_00029773311908896616_016_00029950108064592316_115_00001224744871391589_0,
  116_00008523973761276875_116_00004081528028729957_018_00040295047841724455_117_00038992177772049624_117_00021917971317662216_116_00003338886116348349_015_00000816496580927726_0,
  116_00008523973761276875_116_00004081528028729957_116_00010195284671470892_016_00005430230377757772_117_00018775835081168454_116_00003338886116348349_015_00000816496580927726_0,
  116_00008024013425000663_116_00003407519172674287_015_00003426152277305987_116_00024765080317336676_117_00015633698844674693_116_00003338886116348349_015_00000816496580927726_1,
  116_00007524053088724167_117_00027335103166186175_116_00002609179511550963_017_00017185144451381926_117_00012491562608180934_116_00003338886116348349_115_00001224744871391589_0,
  116_00007524053088724167_117_00027335103166186175_017_00024110371383960497_017_00003140813895523986_117_00007778358253440293_116_00003338886116348349_015_00000816496580927726_0,
  116_00007524053088724167_117_00027335103166186175_116_00006681133016507984_017_00015178811514830773_118_00046362220169465326_116_00003338886116348349_015_00000816496580927726_0,
  116_00007524053088724167_117_00027335103166186175_116_00005453968946520936_016_00008239096488929353_118_00014940857804527726_116_00003338886116348349_115_00001224744871391589_0,
  116_00007024092752447672_117_00020595014605633308_016_00005367386943364846_116_00007811567003479657_017_00003219118574287868_116_00003338886116348349_115_00001224744871391589_0,
  116_00007024092752447672_117_00020595014605633308_116_00006123331166513871_016_00005831496965067996_017_00007932322929028508_116_00003338886116348349_015_00000816496580927726_0,
  116_00007024092752447672_117_00020595014605633308_016_00007598594343341296_114_00000116235995829268_017_00011074459165522269_116_00003338886116348349_115_00001224744871391589_0,
  115_00000652413241617146_117_00020595014605633308_016_00018364170048227666_115_00001623816533699439_016_00001578766352026291_116_00003338886116348349_115_00001224744871391589_0,
  115_00000652413241617146_116_00001385492604507661_017_00024110371383960497_116_00006607767241548985_016_00002050086787500355_016_00029950108064592316_115_00001224744871391589_0,
  116_00006024172079894964_117_00007114837484523745_117_00029438606215474306_017_00003140813895523986_016_00002835620846623795_116_00003338886116348349_015_00000816496580927726_0,
  115_00000652413241617146_116_00001385492604507661_116_00007629396161497976_016_00014358411945410283_016_00003149834470273171_116_00003338886116348349_015_00000816496580927726_0,
  115_00000652413241617146_117_00007114837484523745_016_00004586464353373088_116_00005905550713756088_016_00003464048093922547_116_00003338886116348349_015_00000816496580927726_0,
  116_00006024172079894964_117_00007114837484523745_116_00006179111351513282_017_00024207309729310825_016_00003778261717571923_116_00003338886116348349_015_00000816496580927726_0,
  115_00000652413241617146_116_00001385492604507661_115_00001092042707646324_016_00013656195417617392_016_00004092475341221299_116_00003338886116348349_115_00001224744871391589_0,
  115_00000652413241617146_117_00007114837484523745_117_00045057058015309454_018_00021376474272484798_016_00004563795776695363_116_00003338886116348349_115_00001224744871391589_0]

/-- lr/data.csv 1302-1401 -/
def dataCsv13 : List ℕ := [
  115_00000652413241617146_116_00001385492604507661_116_00012091810961450875_016_00017066961409754307_016_00005035116212169427_116_00003338886116348349_015_00000816496580927726_0,
  115_00000652413241617146_117_00007114837484523745_117_00031112011765456643_116_00007209667122514325_016_00005349329835818804_116_00003338886116348349_015_00000816496580927726_0,
  116_00007024092752447672_116_00001385492604507661_117_00018840371065586167_016_00005731180318240445_016_00005663543459468179_116_00003338886116348349_015_00000816496580927726_0,
  115_00000652413241617146_117_00007114837484523745_017_00030246191733895733_015_00000252104761975864_016_00005977757083117555_116_00003338886116348349_015_00000816496580927726_0,
  116_00006024172079894964_118_00003747489239670474_016_00031193612598092253_116_00020451464503751753_016_00006291970706766932_116_00003338886116348349_015_00000816496580927726_0,
  116_00006024172079894964_118_00003747489239670474_016_00007431253788343062_116_00009617266646375675_016_00006606184330416307_116_00003338886116348349_015_00000816496580927726_0,
  116_00006024172079894964_118_00003747489239670474_116_00002888080436548019_017_00014175645046555194_016_00006920397954065683_116_00003338886116348349_015_00000816496580927726_0,
  116_00006024172079894964_118_00003747489239670474_116_00006458012276510339_017_00021197810324484165_015_00000723461157771506_116_00003338886116348349_015_00000816496580927726_0,
  116_00005524211743618752_016_00000636533963658965_015_00001178210821829714_116_00015034365575063715_016_00007548825201364435_116_00003338886116348349_015_00000816496580927726_0,
  116_00005524211743618752_017_00013105428197142516_016_00006427210458353659_116_00008915050118582778_016_00007863038825013812_116_00003338886116348349_015_00000816496580927726_0,
  116_00005524211743618752_017_00013105428197142516_117_00022744984015544953_015_00001024542942548048_016_00008177252448663187_116_00003338886116348349_015_00000816496580927726_0,
  116_00005524211743618752_016_00000636533963658965_016_00002689938063393106_116_00009817899940030786_016_00008491466072312563_116_00003338886116348349_015_00000816496580927726_0,
  116_00005524211743618752_016_00000636533963658965_117_00036690030265397766_016_00002621364266586198_015_00000880567969596194_116_00003338886116348349_015_00000816496580927726_0,
  116_00005524211743618752_017_00013105428197142516_116_00010027944116472658_016_00016966644762926748_016_00009119893319611315_116_00003338886116348349_015_00000816496580927726_0,
  116_00005024251407342256_017_00019845516757699214_016_00005367386943364846_116_00005504284126445864_016_00009434106943260692_116_00003338886116348349_115_00001224744871391589_0,
  116_00005024251407342256_017_00019845516757699214_117_00010473343315674478_016_00005028963790447548_016_00009905427378734756_116_00003338886116348349_015_00000816496580927726_0,
  116_00005024251407342256_017_00019845516757699214_116_00001772476736559794_117_00032973178962396227_016_00010219641002384132_116_00003338886116348349_015_00000816496580927726_0,
  116_00005024251407342256_017_00019845516757699214_116_00006179111351513282_016_00006333080199205777_016_00010533854626033508_116_00003338886116348349_015_00000816496580927726_0,
  116_00005024251407342256_017_00019845516757699214_017_00024110371383960497_116_00006708083888376544_016_00010848068249682883_116_00003338886116348349_115_00001224744871391589_0,
  116_00005024251407342256_017_00019845516757699214_016_00021766761333191753_116_00015636265456029053_016_00011319388685156948_116_00003338886116348349_015_00000816496580927726_0,
  116_00005024251407342256_017_00019845516757699214_019_00068269368420777075_116_00001892884840653836_016_00011633602308806323_116_00003338886116348349_115_00001224744871391589_0,
  116_00005524211743618752_017_00013105428197142516_116_00009860603561474425_016_00013054295536652054_016_00012104922744280389_116_00003338886116348349_015_00000816496580927726_0,
  116_00005524211743618752_016_00000636533963658965_116_00004840386911527413_016_00009944479484997806_016_00012419136367929764_016_00029950108064592316_115_00001224744871391589_0,
  116_00005524211743618752_016_00000636533963658965_116_00009916383746473837_016_00011750179127893825_016_00013204670427053204_116_00003338886116348349_015_00000816496580927726_0,
  116_00006024172079894964_016_00000636533963658965_116_00016498445576404364_016_00034622374604576662_015_00001351888405070258_116_00003338886116348349_115_00001224744871391589_1,
  116_00006024172079894964_016_00000636533963658965_016_00001574334363404881_117_00031970012494120725_016_00013990204486176645_016_00029950108064592316_115_00001224744871391589_0,
  116_00005524211743618752_017_00013105428197142516_116_00007127374496503274_016_00006533713492860893_016_00014775738545300083_116_00003338886116348349_015_00000816496580927726_0,
  116_00006024172079894964_017_00013105428197142516_015_00001535204005825946_114_00000132286659321677_015_00001508995216894946_116_00003338886116348349_015_00000816496580927726_0,
  116_00006024172079894964_016_00000636533963658965_015_00001005292248331539_116_00011222332995616573_016_00015404165792598836_116_00003338886116348349_115_00001224744871391589_0,
  116_00006024172079894964_017_00013105428197142516_016_00006929232123348361_116_00009617266646375675_014_00000158754862280729_016_00029950108064592316_115_00001224744871391589_0,
  116_00005524211743618752_017_00013105428197142516_016_00008769978228328932_116_00009817899940030786_015_00001666102028719634_116_00003338886116348349_015_00000816496580927726_0,
  116_00005524211743618752_017_00013105428197142516_016_00012953492103284776_114_00000132286659321677_016_00016975233910845717_016_00029950108064592316_115_00001224744871391589_0,
  116_00005024251407342256_017_00019845516757699214_016_00018364170048227666_116_00016037532043339278_016_00017760767969969156_116_00003338886116348349_015_00000816496580927726_0,
  116_00005024251407342256_017_00019845516757699214_017_00010723126984101795_117_00046014343049978595_016_00018074981593618533_116_00003338886116348349_115_00001224744871391589_0,
  116_00005024251407342256_016_00002658560531825208_116_00009693263006476192_016_00009141946310377358_016_00018546302029092596_116_00003338886116348349_015_00000816496580927726_1,
  116_00005024251407342256_016_00002658560531825208_116_00009358581896479724_016_00013856828711272502_016_00018860515652741972_116_00003338886116348349_015_00000816496580927726_1,
  116_00005524211743618752_017_00019845516757699214_017_00024668173233954607_116_00007410300416169433_015_00001917472927639135_116_00003338886116348349_015_00000816496580927726_0,
  115_00000652413241617146_017_00013105428197142516_017_00041402228733777985_115_00000399953442403252_116_00016959837443286896_016_00029950108064592316_115_00001224744871391589_0,
  116_00007024092752447672_016_00000636533963658965_016_00010164482853314214_116_00012827399344857475_116_00016174303384163455_116_00003338886116348349_015_00000816496580927726_0,
  116_00007024092752447672_017_00013105428197142516_016_00007208133048345416_116_00008513783531272554_116_00015860089760514078_116_00003338886116348349_115_00001224744871391589_0,
  116_00007024092752447672_017_00013105428197142516_017_00016858947334037033_116_00003698584483549854_116_00015388769325040015_116_00003338886116348349_015_00000816496580927726_0,
  116_00007024092752447672_017_00013105428197142516_116_00011757129851454409_016_00010546379365963146_115_00001507455570139064_116_00003338886116348349_115_00001224744871391589_0,
  116_00007024092752447672_016_00000636533963658965_016_00003191959728387807_116_00007009033828859209_116_00014603235265916574_116_00003338886116348349_115_00001224744871391589_0,
  116_00007524053088724167_017_00013105428197142516_016_00007654374528340707_116_00007309983769341876_116_00014131914830442511_116_00003338886116348349_015_00000816496580927726_0,
  116_00007524053088724167_016_00000636533963658965_016_00015073139133262403_115_00001112201634878902_116_00013817701206793134_116_00003338886116348349_015_00000816496580927726_0,
  116_00007524053088724167_118_00003747489239670474_016_00014794238208265347_116_00013930882459960594_116_00013503487583143758_116_00003338886116348349_015_00000816496580927726_0,
  116_00007024092752447672_016_00000636533963658965_118_00032219192657510165_116_00006106184007411204_116_00013189273959494383_116_00003338886116348349_015_00000816496580927726_0,
  115_00000652413241617146_017_00013105428197142516_016_00009941362113316569_115_00001272708269802992_116_00012875060335845006_116_00003338886116348349_015_00000816496580927726_0,
  115_00000652413241617146_017_00013105428197142516_116_00009804823376475014_016_00005530547024585329_115_00001256084671219563_116_00003338886116348349_015_00000816496580927726_0,
  115_00000652413241617146_017_00013105428197142516_116_00007629396161497976_016_00005931813611895553_116_00012246633088546255_116_00003338886116348349_015_00000816496580927726_0,
  115_00000652413241617146_017_00013105428197142516_116_00005732869871517993_016_00007536879961136456_116_00011932419464896877_116_00003338886116348349_015_00000816496580927726_0,
  115_00000652413241617146_017_00013105428197142516_117_00007684334065703917_016_00003724847381689319_116_00011618205841247502_116_00003338886116348349_015_00000816496580927726_0,
  115_00000652413241617146_017_00013105428197142516_015_00000330352009838663_116_00006708083888376544_116_00011303992217598127_116_00003338886116348349_115_00001224744871391589_0,
  116_00007024092752447672_016_00000636533963658965_116_00005286628391522703_016_00008138779842101795_116_00010832671782124061_116_00003338886116348349_115_00001224744871391589_0,
  116_00007024092752447672_118_00003747489239670474_115_00001142244874145794_016_00008038463195274238_116_00010361351346649998_116_00003338886116348349_015_00000816496580927726_0,
  116_00007024092752447672_118_00003747489239670474_016_00007933275453337764_117_00045011176581703016_116_00010047137723000623_116_00003338886116348349_115_00001224744871391589_0,
  116_00007024092752447672_117_00007114837484523745_017_00030246191733895733_116_00002595101368446733_116_00009575817287526558_116_00003338886116348349_015_00000816496580927726_0,
  116_00007024092752447672_117_00007114837484523745_117_00043383652465327116_016_00005731180318240445_116_00009261603663877183_116_00003338886116348349_015_00000816496580927726_0,
  115_00000652413241617146_016_00000636533963658965_016_00008602637673330699_115_00000811251694396233_116_00008947390040227806_116_00003338886116348349_115_00001224744871391589_0,
  115_00000652413241617146_017_00013105428197142516_116_00007517835791499152_015_00001034574607230803_116_00008476069604753742_116_00003338886116348349_015_00000816496580927726_0,
  116_00006024172079894964_017_00013105428197142516_016_00009383560263322456_116_00012426132757547248_116_00008161855981104366_016_00029950108064592316_115_00001224744871391589_0,
  116_00007024092752447672_016_00000636533963658965_117_00045057058015309454_016_00001919147738793301_116_00007376321921980926_116_00003338886116348349_115_00001224744871391589_0,
  116_00007024092752447672_118_00003747489239670474_117_00012146748865656816_017_00012169312110004112_116_00006905001486506862_116_00003338886116348349_015_00000816496580927726_0,
  115_00000652413241617146_016_00000636533963658965_116_00005900210426516227_016_00014659361885892956_116_00006590787862857486_116_00003338886116348349_015_00000816496580927726_0,
  115_00000652413241617146_017_00013105428197142516_017_00015185541784054696_116_00006908717182031652_115_00000627657423920811_116_00003338886116348349_015_00000816496580927726_0,
  115_00000652413241617146_016_00000636533963658965_016_00007654374528340707_116_00006507450594721428_116_00005962360615558734_116_00003338886116348349_015_00000816496580927726_0,
  115_00000652413241617146_016_00000636533963658965_116_00009525922451477957_015_00001686632811609919_116_00005648146991909357_116_00003338886116348349_115_00001224744871391589_0,
  116_00006024172079894964_017_00013105428197142516_017_00023552569533966383_117_00024947847216191754_116_00005176826556435293_116_00003338886116348349_115_00001224744871391589_0,
  116_00006024172079894964_017_00019845516757699214_016_00009439340448321867_116_00012927715991685031_115_00000470550612096123_016_00029950108064592316_115_00001224744871391589_0,
  115_00000652413241617146_017_00019845516757699214_117_00032227615465444864_017_00015178811514830773_115_00000391997206183779_116_00003338886116348349_115_00001224744871391589_0,
  115_00000652413241617146_017_00019845516757699214_116_00004896167096526824_019_00013131449069732513_117_00034486516263637257_116_00003338886116348349_015_00000816496580927726_0,
  115_00000652413241617146_017_00019845516757699214_116_00002441838956552729_117_00012909849596884967_115_00000313443800271435_116_00003338886116348349_115_00001224744871391589_0,
  116_00006024172079894964_017_00019845516757699214_017_00019090154734013484_017_00018188310919657433_117_00026631175672402857_116_00003338886116348349_115_00001224744871391589_0,
  116_00006024172079894964_017_00019845516757699214_115_00000963748282147678_016_00019073294346305432_117_00021917971317662216_116_00003338886116348349_115_00001224744871391589_0,
  116_00006024172079894964_017_00019845516757699214_017_00007934117734131232_117_00031970012494120725_117_00017204766962921575_116_00003338886116348349_015_00000816496580927726_0,
  116_00006024172079894964_017_00019845516757699214_118_00060109285157215794_117_00028960513089293993_117_00014062630726427813_116_00003338886116348349_115_00001224744871391589_0,
  116_00006024172079894964_017_00013105428197142516_117_00006568730365715691_116_00008814733471755224_117_00009349426371687174_116_00003338886116348349_115_00001224744871391589_0,
  116_00006024172079894964_017_00013105428197142516_117_00043383652465327116_016_00006734346786516008_118_00046362220169465326_116_00003338886116348349_015_00000816496580927726_0,
  116_00006024172079894964_017_00013105428197142516_116_00004673046356529179_015_00000492864714361999_118_00014940857804527726_016_00029950108064592316_115_00001224744871391589_0,
  115_00000652413241617146_016_00000636533963658965_016_00004530684168373677_116_00005203334185963199_017_00006361254810781627_116_00003338886116348349_015_00000816496580927726_0,
  115_00000652413241617146_016_00000636533963658965_016_00013790194878275945_116_00012325816110719694_017_00009503391047275388_116_00003338886116348349_015_00000816496580927726_0,
  116_00006024172079894964_017_00013105428197142516_017_00024668173233954607_117_00043004843645151863_017_00012645527283769148_116_00003338886116348349_115_00001224744871391589_0,
  116_00006024172079894964_016_00000636533963658965_016_00006371430273354248_116_00009717583293203229_016_00001735873163850979_116_00003338886116348349_015_00000816496580927726_0,
  116_00005524211743618752_017_00013105428197142516_116_00011589789296456174_016_00009041629663549801_016_00002050086787500355_116_00003338886116348349_115_00001224744871391589_0,
  116_00005524211743618752_017_00019845516757699214_117_00030554209915462527_015_00000382516402851687_016_00002521407222974419_116_00003338886116348349_015_00000816496580927726_0,
  116_00005524211743618752_017_00013105428197142516_017_00035824210233836856_117_00038992177772049624_016_00002835620846623795_116_00003338886116348349_115_00001224744871391589_0,
  116_00005524211743618752_017_00013105428197142516_116_00005230848206523292_019_00013131449069732513_016_00003306941282097859_116_00003338886116348349_015_00000816496580927726_0,
  116_00005524211743618752_016_00000636533963658965_015_00001585406172325416_116_00013930882459960594_017_00036211549057472353_116_00003338886116348349_015_00000816496580927726_0,
  116_00005524211743618752_016_00000636533963658965_116_00002664959696550374_016_00005329913730930215_016_00003935368529396611_016_00029950108064592316_115_00001224744871391589_0,
  116_00005524211743618752_017_00013105428197142516_118_00032219192657510165_017_00028219975602413067_016_00004720902588520051_116_00003338886116348349_015_00000816496580927726_0,
  116_00005524211743618752_017_00013105428197142516_116_00007238934866502097_016_00014859995179548064_016_00005035116212169427_116_00003338886116348349_015_00000816496580927726_0,
  116_00005524211743618752_017_00013105428197142516_015_00006683715081271604_116_00031285662361127837_016_00005349329835818804_116_00003338886116348349_015_00000816496580927726_1,
  116_00005024251407342256_017_00019845516757699214_117_00024976191415521404_015_00000663403013968845_016_00005663543459468179_116_00003338886116348349_115_00001224744871391589_0,
  115_00000452429107106576_016_00002658560531825208_017_00030803993583889844_116_00006708083888376544_016_00006134863894942243_116_00003338886116348349_015_00000816496580927726_0,
  115_00000452429107106576_016_00002658560531825208_117_00006568730365715691_016_00004025797322171985_016_00006449077518591619_116_00003338886116348349_015_00000816496580927726_0,
  115_00000452429107106576_016_00002658560531825208_116_00004840386911527413_118_00028781849141293357_016_00006763291142240996_116_00003338886116348349_015_00000816496580927726_0,
  116_00005024251407342256_017_00019845516757699214_117_00031112011765456643_117_00007894017255507152_016_00007077504765890371_116_00003338886116348349_015_00000816496580927726_0,
  115_00000452429107106576_017_00013105428197142516_017_00016858947334037033_117_00017925681938262783_016_00007391718389539748_116_00003338886116348349_015_00000816496580927726_0,
  115_00000452429107106576_017_00019845516757699214_117_00037247832115391877_015_00000663403013968845_016_00007705932013189124_116_00003338886116348349_015_00000816496580927726_0,
  116_00005024251407342256_017_00013105428197142516_118_00032219192657510165_016_00003524214088034203_016_00008020145636838499_116_00003338886116348349_015_00000816496580927726_0]

/-- lr/data.csv 1402-1501 -/
def dataCsv14 : List ℕ := [
  116_00005524211743618752_016_00000636533963658965_115_00000963748282147678_015_00002278501027892502_016_00008334359260487876_016_00029950108064592316_115_00001224744871391589_0,
  116_00005524211743618752_017_00013105428197142516_117_00003779721115745129_117_00022941514279640599_016_00009119893319611315_016_00029950108064592316_115_00001224744871391589_0,
  116_00005524211743618752_016_00000636533963658965_116_00012593832626445576_015_00001686632811609919_016_00009905427378734756_116_00003338886116348349_115_00001224744871391589_0,
  116_00005024251407342256_017_00013105428197142516_116_00009302801711480313_016_00008038463195274238_015_00001037674781420882_116_00003338886116348349_015_00000816496580927726_0,
  116_00005524211743618752_016_00000636533963658965_017_00009049721434119458_017_00006150313300350718_016_00010690961437858195_116_00003338886116348349_115_00001224744871391589_0,
  116_00005524211743618752_016_00000636533963658965_116_00008075637641493265_016_00002721680913413756_015_00001116228187333226_116_00003338886116348349_015_00000816496580927726_0,
  116_00005524211743618752_016_00000636533963658965_116_00005398188761521525_016_00008038463195274238_016_00011476495496981636_116_00003338886116348349_015_00000816496580927726_0,
  116_00005524211743618752_118_00003747489239670474_017_00014069938084066472_116_00006206500654238761_015_00001179070912063101_116_00003338886116348349_015_00000816496580927726_0,
  116_00005524211743618752_118_00003747489239670474_116_00004840386911527413_016_00008941313016722243_016_00012104922744280389_116_00003338886116348349_015_00000816496580927726_0,
  116_00005524211743618752_016_00000636533963658965_116_00004059464321535655_015_00000252104761975864_016_00012419136367929764_116_00003338886116348349_015_00000816496580927726_0,
  116_00005524211743618752_016_00000636533963658965_117_00038921237665374214_016_00013254928830307169_015_00001273334999157914_116_00003338886116348349_115_00001224744871391589_0,
  116_00005524211743618752_016_00000636533963658965_015_00002260346410818292_116_00016639431924304617_016_00013204670427053204_116_00003338886116348349_015_00000816496580927726_0,
  116_00006024172079894964_117_00007114837484523745_115_00000690425375650563_016_00013254928830307169_015_00001351888405070258_116_00003338886116348349_115_00001224744871391589_0,
  115_00000652413241617146_116_00001385492604507661_118_00060109285157215794_117_00032973178962396227_016_00013990204486176645_116_00003338886116348349_115_00001224744871391589_0,
  115_00000652413241617146_116_00001385492604507661_017_00017416749184031147_017_00021197810324484165_016_00014461524921650708_116_00003338886116348349_115_00001224744871391589_0,
  115_00000652413241617146_117_00007114837484523745_017_00043633436133754433_116_00007009033828859209_016_00014932845357124773_116_00003338886116348349_015_00000816496580927726_0,
  115_00000652413241617146_117_00007114837484523745_016_00030356909823101086_116_00021855897559337545_016_00015247058980774149_116_00003338886116348349_115_00001224744871391589_0,
  115_00000652413241617146_117_00007114837484523745_018_00012404955342018832_117_00014916182533436123_016_00015718379416248212_116_00003338886116348349_015_00000816496580927726_0,
  116_00006024172079894964_117_00007114837484523745_116_00012203371331449697_016_00007436563314308898_015_00001603259303989759_116_00003338886116348349_015_00000816496580927726_0,
  115_00000652413241617146_116_00001385492604507661_116_00010306845041469714_016_00013355245477134718_016_00016346806663546964_116_00003338886116348349_015_00000816496580927726_1,
  116_00006024172079894964_117_00007114837484523745_116_00002441838956552729_117_00048020675986529676_015_00001666102028719634_116_00003338886116348349_115_00001224744871391589_0,
  115_00000652413241617146_116_00001385492604507661_017_00028014984333919285_116_00008212833590789884_016_00017132340722670405_116_00003338886116348349_015_00000816496580927726_0,
  115_00000652413241617146_116_00001385492604507661_117_00004895324815733354_117_00045011176581703016_116_00016959837443286896_116_00003338886116348349_015_00000816496580927726_0,
  115_00000652413241617146_116_00001385492604507661_019_00012489183421365824_116_00006607767241548985_116_00016645623819637518_116_00003338886116348349_015_00000816496580927726_0,
  115_00000652413241617146_117_00020595014605633308_117_00042825850615333005_016_00006834663433343559_116_00016331410195988143_116_00003338886116348349_015_00000816496580927726_0,
  116_00007024092752447672_117_00020595014605633308_116_00010195284671470892_016_00014057462004927617_116_00016017196572338768_116_00003338886116348349_015_00000816496580927726_0,
  115_00000652413241617146_117_00020595014605633308_014_00000046422445383725_116_00005403967479618307_115_00001570298294868939_116_00003338886116348349_115_00001224744871391589_0,
  115_00000652413241617146_116_00001385492604507661_116_00008075637641493265_017_00003140813895523986_116_00015231662513215327_116_00003338886116348349_015_00000816496580927726_0,
  116_00006024172079894964_117_00007114837484523745_016_00001630114548404292_116_00006306817301066312_115_00001491744888956595_116_00003338886116348349_015_00000816496580927726_0,
  116_00005524211743618752_118_00003747489239670474_116_00004617266171529768_015_00000382516402851687_116_00014603235265916574_116_00003338886116348349_115_00001224744871391589_0,
  116_00005524211743618752_118_00003747489239670474_116_00008968120601483845_016_00009342579604032467_116_00014131914830442511_116_00003338886116348349_015_00000816496580927726_0,
  116_00005524211743618752_117_00007114837484523745_116_00007517835791499152_017_00014175645046555194_116_00013817701206793134_116_00003338886116348349_115_00001224744871391589_0,
  116_00006024172079894964_116_00001385492604507661_116_00005677089686518582_017_00028219975602413067_115_00001334638077131907_116_00003338886116348349_015_00000816496580927726_0,
  116_00006024172079894964_116_00001385492604507661_116_00009804823376475014_016_00004025797322171985_116_00013032167147669695_116_00003338886116348349_015_00000816496580927726_0,
  116_00006024172079894964_116_00001385492604507661_116_00009023900786483257_015_00000964352954451514_116_00012717953524020318_116_00003338886116348349_115_00001224744871391589_0,
  116_00006024172079894964_117_00007114837484523745_117_00007126532215709803_017_00021197810324484165_116_00012246633088546255_016_00029950108064592316_115_00001224744871391589_0,
  116_00006024172079894964_116_00001385492604507661_117_00016051361815615603_017_00042264306158271003_116_00011461099029422814_016_00029950108064592316_115_00001224744871391589_0,
  116_00006024172079894964_117_00007114837484523745_115_00000556552931651976_016_00005229597084102664_116_00010675564970299374_016_00029950108064592316_115_00001224744871391589_1,
  116_00006024172079894964_117_00007114837484523745_117_00031669813615450754_117_00008897183723782728_116_00009890030911175934_116_00003338886116348349_015_00000816496580927726_0,
  116_00006024172079894964_116_00001385492604507661_117_00002664117415756904_117_00029963679557569567_116_00009575817287526558_116_00003338886116348349_115_00001224744871391589_0,
  116_00006024172079894964_117_00007114837484523745_016_00011280086553302437_116_00012325816110719694_116_00009104496852052494_116_00003338886116348349_115_00001224744871391589_0,
  116_00006024172079894964_117_00007114837484523745_017_00006260712184148895_116_00001190668312860946_115_00000863317641657843_116_00003338886116348349_015_00000816496580927726_0,
  116_00006024172079894964_118_00003747489239670474_117_00029438606215474306_117_00014916182533436123_116_00008318962792929054_116_00003338886116348349_115_00001224744871391589_0,
  116_00005524211743618752_016_00000636533963658965_017_00035266408383842746_117_00017925681938262783_115_00000784764235745499_116_00003338886116348349_015_00000816496580927726_0,
  116_00005024251407342256_017_00013105428197142516_116_00003445882286542132_117_00020935181343089515_116_00007533428733805614_116_00003338886116348349_015_00000816496580927726_0,
  116_00005024251407342256_016_00000636533963658965_017_00044191237983748544_115_00001082106640830635_116_00007219215110156237_116_00003338886116348349_015_00000816496580927726_0,
  116_00005024251407342256_017_00013105428197142516_016_00004976925648368967_117_00042001677176876356_116_00006905001486506862_116_00003338886116348349_115_00001224744871391589_0,
  116_00005024251407342256_017_00019845516757699214_016_00006873451938348949_115_00000640713394789387_116_00006433681051032798_116_00003338886116348349_115_00001224744871391589_0,
  116_00005024251407342256_017_00019845516757699214_016_00006594551013351894_116_00009015366765410335_116_00005962360615558734_116_00003338886116348349_115_00001224744871391589_0,
  116_00005024251407342256_016_00002658560531825208_016_00007710154713340118_116_00009216000059065448_115_00000549104018008467_016_00029950108064592316_115_00001224744871391589_0,
  116_00005024251407342256_017_00019845516757699214_116_00005119287836524469_118_00008718519775782523_115_00000470550612096123_116_00003338886116348349_115_00001224744871391589_0,
  116_00005524211743618752_016_00002658560531825208_015_00001630030320324945_115_00001463309898775349_117_00042341856854871657_116_00003338886116348349_015_00000816496580927726_0,
  116_00005024251407342256_017_00019845516757699214_016_00002522597508394872_116_00005604600773273423_115_00000391997206183779_116_00003338886116348349_015_00000816496580927726_0,
  115_00000452429107106576_016_00002658560531825208_117_00049519472815262355_016_00000915981270517738_117_00036057584381884134_116_00003338886116348349_015_00000816496580927726_0,
  115_00000452429107106576_016_00002658560531825208_116_00006179111351513282_016_00006934980080171117_117_00032915448145390375_116_00003338886116348349_015_00000816496580927726_0,
  116_00005024251407342256_016_00002658560531825208_114_00000087449998614862_016_00013054295536652054_117_00029773311908896616_116_00003338886116348349_015_00000816496580927726_0,
  116_00005024251407342256_017_00019845516757699214_117_00021071578465562615_016_00003022630853896422_117_00026631175672402857_116_00003338886116348349_015_00000816496580927726_0,
  116_00005024251407342256_017_00019845516757699214_116_00003557442656540954_017_00024207309729310825_117_00023489039435909095_116_00003338886116348349_015_00000816496580927726_0,
  116_00005524211743618752_017_00019845516757699214_116_00009749043191475603_016_00014057462004927617_117_00020346903199415334_116_00003338886116348349_015_00000816496580927726_0,
  116_00005024251407342256_017_00019845516757699214_117_00037247832115391877_117_00038992177772049624_117_00017204766962921575_116_00003338886116348349_015_00000816496580927726_0,
  116_00005024251407342256_017_00019845516757699214_116_00005677089686518582_016_00007837829901619122_117_00014062630726427813_116_00003338886116348349_015_00000816496580927726_0,
  116_00005524211743618752_017_00013105428197142516_116_00002664959696550374_016_00005129280437275106_117_00010920494489934053_116_00003338886116348349_015_00000816496580927726_0,
  116_00005524211743618752_017_00013105428197142516_016_00009327780078323045_116_00012426132757547248_117_00007778358253440293_116_00003338886116348349_015_00000816496580927726_0,
  116_00006024172079894964_016_00000636533963658965_016_00003805541763381331_117_00004884517850680491_118_00046362220169465326_116_00003338886116348349_015_00000816496580927726_0,
  116_00006024172079894964_118_00003747489239670474_116_00007071594311503863_016_00006333080199205777_118_00014940857804527726_116_00003338886116348349_015_00000816496580927726_0,
  115_00000652413241617146_116_00001385492604507661_018_00040295047841724455_016_00000915981270517738_018_00016480504560409875_116_00003338886116348349_015_00000816496580927726_0,
  115_00000652413241617146_116_00001385492604507661_116_00009693263006476192_016_00010546379365963146_017_00004790186692534748_116_00003338886116348349_015_00000816496580927726_0,
  116_00007024092752447672_116_00001385492604507661_018_00029139010841842207_116_00009817899940030786_017_00007932322929028508_116_00003338886116348349_015_00000816496580927726_0,
  116_00007024092752447672_116_00001385492604507661_116_00006681133016507984_015_00000492864714361999_017_00011074459165522269_116_00003338886116348349_115_00001224744871391589_0,
  116_00007024092752447672_116_00001385492604507661_117_00023302785865539066_016_00001618197798310635_016_00001578766352026291_116_00003338886116348349_015_00000816496580927726_0,
  116_00007524053088724167_117_00020595014605633308_116_00005677089686518582_016_00002621364266586198_017_00018929799756756668_116_00003338886116348349_015_00000816496580927726_0,
  116_00007524053088724167_117_00027335103166186175_116_00006569572646509162_016_00013656195417617392_016_00002207193599325043_116_00003338886116348349_015_00000816496580927726_0,
  116_00007524053088724167_117_00027335103166186175_115_00000562130950151917_017_00045273805563097663_016_00002521407222974419_116_00003338886116348349_115_00001224744871391589_0,
  116_00007524053088724167_116_00003407519172674287_116_00012482272256446754_016_00008941313016722243_016_00002992727658448483_116_00003338886116348349_115_00001224744871391589_0,
  116_00007524053088724167_116_00003407519172674287_115_00000963748282147678_016_00021982477104304565_016_00003464048093922547_116_00003338886116348349_115_00001224744871391589_0,
  116_00008024013425000663_116_00003407519172674287_117_00011031145165668592_117_00046014343049978595_016_00003935368529396611_116_00003338886116348349_115_00001224744871391589_0,
  116_00008024013425000663_116_00003407519172674287_016_00008546857488331286_116_00011723916229754356_017_00044066889648706753_116_00003338886116348349_015_00000816496580927726_0,
  116_00008523973761276875_116_00004081528028729957_017_00017416749184031147_117_00044008010113427437_016_00004720902588520051_116_00003338886116348349_015_00000816496580927726_0,
  116_00008523973761276875_116_00004081528028729957_016_00001630114548404292_117_00042001677176876356_016_00005035116212169427_116_00003338886116348349_015_00000816496580927726_0,
  116_00009023934097553371_117_00047555368847852436_116_00010251064856470304_015_00000382516402851687_016_00005349329835818804_116_00003338886116348349_015_00000816496580927726_0,
  116_00009023934097553371_117_00047555368847852436_015_00002885084482811698_116_00021354314325199764_016_00005663543459468179_116_00003338886116348349_115_00001224744871391589_0,
  116_00009023934097553371_116_00005429545740840913_116_00011534009111456762_015_00002027709410823611_016_00006134863894942243_116_00003338886116348349_115_00001224744871391589_0,
  116_00009523894433829583_114_00000061035545968962_116_00005063507651525058_015_00001255271230251427_016_00006606184330416307_116_00003338886116348349_115_00001224744871391589_0,
  116_00010023854770106078_116_00007451572309007539_017_00021879163983984046_117_00044008010113427437_016_00007077504765890371_116_00003338886116348349_015_00000816496580927726_0,
  116_00010023854770106078_115_00000677756345295187_017_00012954334384078245_117_00007894017255507152_016_00007391718389539748_116_00003338886116348349_115_00001224744871391589_0,
  116_00009523894433829583_115_00000677756345295187_016_00024388430028164083_115_00002075241444423442_016_00007863038825013812_116_00003338886116348349_115_00001224744871391589_0,
  116_00009023934097553371_116_00005429545740840913_117_00008242135915698029_116_00005403967479618307_016_00008334359260487876_116_00003338886116348349_115_00001224744871391589_0,
  116_00009023934097553371_114_00000061035545968962_116_00006123331166513871_016_00008540046429412019_015_00000880567969596194_116_00003338886116348349_015_00000816496580927726_0,
  116_00009023934097553371_114_00000061035545968962_016_00001630114548404292_116_00003698584483549854_016_00009119893319611315_116_00003338886116348349_015_00000816496580927726_0,
  116_00009023934097553371_115_00000677756345295187_016_00010276043223313036_116_00013429299225822813_016_00009434106943260692_116_00003338886116348349_115_00001224744871391589_0,
  116_00009023934097553371_115_00000677756345295187_116_00011031987446462062_015_00000382516402851687_016_00009905427378734756_116_00003338886116348349_015_00000816496580927726_0,
  116_00009523894433829583_116_00007451572309007539_116_00010362625226469127_016_00006232763552378227_016_00010219641002384132_116_00003338886116348349_115_00001224744871391589_0,
  116_00010023854770106078_116_00008799590021118496_116_00003334321916543309_015_00001857171111216765_016_00010690961437858195_116_00003338886116348349_115_00001224744871391589_1,
  116_00010023854770106078_116_00008125581165062826_116_00002386058771553318_015_00000492864714361999_015_00001116228187333226_116_00003338886116348349_015_00000816496580927726_0,
  116_00010023854770106078_116_00008799590021118496_116_00009023900786483257_016_00008540046429412019_016_00011476495496981636_116_00003338886116348349_115_00001224744871391589_0,
  116_00010523815106382575_116_00010147607733229451_116_00008689219676486789_016_00004627697203137324_014_00000119478159324557_016_00029950108064592316_115_00001224744871391589_0,
  116_00010023854770106078_116_00008799590021118496_116_00015103940951419084_016_00029506225616371293_015_00001273334999157914_116_00003338886116348349_015_00000816496580927726_1,
  116_00010023854770106078_116_00008799590021118496_016_00005032705833368378_115_00000570491742010098_016_00013047563615228517_116_00003338886116348349_015_00000816496580927726_0,
  116_00010023854770106078_116_00008125581165062826_015_00001401331561827359_116_00012827399344857475_016_00013361777238877892_116_00003338886116348349_015_00000816496580927726_0,
  116_00009523894433829583_116_00008125581165062826_015_00003721787257802867_116_00023761913849061114_016_00013675990862527267_116_00003338886116348349_115_00001224744871391589_0]

/-- lr/data.csv 1502-1601 -/
def dataCsv15 : List ℕ := [
  116_00010023854770106078_116_00008799590021118496_016_00031360953153090487_116_00022658430733957995_016_00014147311298001333_116_00003338886116348349_115_00001224744871391589_0,
  116_00010023854770106078_116_00008799590021118496_116_00005732869871517993_016_00008239096488929353_016_00014618631733475396_116_00003338886116348349_115_00001224744871391589_0,
  116_00010023854770106078_116_00008799590021118496_117_00042825850615333005_016_00008239096488929353_015_00001508995216894946_116_00003338886116348349_015_00000816496580927726_0,
  116_00010023854770106078_116_00008799590021118496_016_00012953492103284776_115_00001383056581313304_016_00015404165792598836_116_00003338886116348349_015_00000816496580927726_0,
  116_00010023854770106078_116_00008799590021118496_117_00018282569215592054_016_00007035296726998674_016_00015718379416248212_116_00003338886116348349_015_00000816496580927726_0,
  116_00010023854770106078_116_00008799590021118496_017_00048653652783701445_117_00032973178962396227_015_00001603259303989759_116_00003338886116348349_015_00000816496580927726_0,
  116_00010023854770106078_116_00008125581165062826_016_00003972882318379565_116_00006306817301066312_016_00016346806663546964_116_00003338886116348349_015_00000816496580927726_0,
  116_00010023854770106078_116_00009473598877173782_116_00009079680971482668_016_00015762845000996077_015_00001666102028719634_116_00003338886116348349_115_00001224744871391589_0,
  116_00010023854770106078_116_00009473598877173782_116_00001772476736559794_117_00026954180152742907_016_00017132340722670405_116_00003338886116348349_115_00001224744871391589_0,
  116_00010023854770106078_116_00010147607733229451_116_00006123331166513871_117_00022941514279640599_016_00017603661158144468_116_00003338886116348349_015_00000816496580927726_1,
  116_00009523894433829583_116_00008799590021118496_017_00004587306634166558_117_00010903516660333884_116_00016959837443286896_116_00003338886116348349_115_00001224744871391589_0,
  116_00009523894433829583_116_00008799590021118496_016_00005757848238360724_116_00009717583293203229_115_00001648851700781283_116_00003338886116348349_015_00000816496580927726_0,
  116_00010023854770106078_116_00008799590021118496_116_00001995597476557439_116_00003698584483549854_116_00016174303384163455_016_00029950108064592316_115_00001224744871391589_0,
  116_00009523894433829583_116_00008799590021118496_016_00001630114548404292_116_00007109350475686768_116_00015388769325040015_116_00003338886116348349_015_00000816496580927726_0,
  116_00009523894433829583_116_00008125581165062826_016_00004976925648368967_117_00023944680747916175_115_00001507455570139064_116_00003338886116348349_115_00001224744871391589_0,
  116_00009023934097553371_116_00007451572309007539_017_00041960030583772095_117_00045011176581703016_116_00014603235265916574_116_00003338886116348349_115_00001224744871391589_0,
  116_00009023934097553371_116_00007451572309007539_115_00001454613910142497_016_00014057462004927617_116_00014131914830442511_116_00003338886116348349_015_00000816496580927726_0,
  116_00009023934097553371_116_00007451572309007539_116_00007294715051501508_116_00001190668312860946_116_00013817701206793134_116_00003338886116348349_115_00001224744871391589_0,
  116_00009023934097553371_115_00000677756345295187_116_00009358581896479724_016_00015762845000996077_115_00001334638077131907_016_00029950108064592316_115_00001224744871391589_0,
  116_00009023934097553371_116_00007451572309007539_116_00001493575811562738_117_00014916182533436123_115_00001256084671219563_116_00003338886116348349_115_00001224744871391589_0,
  116_00008523973761276875_114_00000061035545968962_117_00037247832115391877_018_00011344809589729025_116_00012089526276721567_116_00003338886116348349_015_00000816496580927726_0,
  116_00009023934097553371_116_00007451572309007539_016_00002578377693394283_115_00000570491742010098_115_00001177531265307219_116_00003338886116348349_115_00001224744871391589_0,
  116_00009023934097553371_115_00000677756345295187_017_00012954334384078245_117_00022941514279640599_116_00011303992217598127_016_00029950108064592316_115_00001224744871391589_0,
  116_00008523973761276875_115_00000677756345295187_117_00011031145165668592_117_00030966846025845146_116_00010518458158474686_116_00003338886116348349_015_00000816496580927726_0,
  116_00009023934097553371_115_00000677756345295187_017_00034708606533848635_117_00042001677176876356_115_00001020424453482531_116_00003338886116348349_015_00000816496580927726_0,
  116_00009023934097553371_115_00000677756345295187_014_00000507724575328856_115_00002626983001975002_116_00009890030911175934_116_00003338886116348349_015_00000816496580927726_0,
  116_00009523894433829583_115_00000677756345295187_016_00013845975063275355_116_00012426132757547248_116_00009575817287526558_116_00003338886116348349_015_00000816496580927726_0,
  116_00009523894433829583_114_00000061035545968962_116_00006346451906511517_017_00045273805563097663_116_00009261603663877183_016_00029950108064592316_115_00001224744871391589_0,
  116_00009523894433829583_115_00000677756345295187_017_00011280928834095907_116_00006005867360583647_116_00008476069604753742_116_00003338886116348349_015_00000816496580927726_0,
  116_00009523894433829583_115_00000677756345295187_017_00010165325134107683_115_00000399953442403252_116_00008161855981104366_116_00003338886116348349_015_00000816496580927726_0,
  116_00009523894433829583_115_00000677756345295187_117_00023302785865539066_017_00005147146832075141_115_00000784764235745499_116_00003338886116348349_015_00000816496580927726_0,
  116_00009523894433829583_115_00000677756345295187_115_00000562130950151917_017_00014175645046555194_116_00007533428733805614_016_00029950108064592316_115_00001224744871391589_0,
  116_00009523894433829583_116_00007451572309007539_116_00006792693386506806_117_00007894017255507152_116_00006747894674682174_116_00003338886116348349_115_00001224744871391589_0,
  116_00010023854770106078_116_00007451572309007539_116_00011143547816460884_016_00011449229187411152_115_00000627657423920811_116_00003338886116348349_115_00001224744871391589_0,
  116_00010023854770106078_116_00008125581165062826_015_00001217256951329302_116_00010921383055133904_116_00005805253803734046_116_00003338886116348349_015_00000816496580927726_0,
  116_00010023854770106078_116_00008125581165062826_017_00023552569533966383_117_00038992177772049624_115_00000549104018008467_116_00003338886116348349_015_00000816496580927726_0,
  116_00009023934097553371_116_00007451572309007539_115_00001186869022145323_015_00001445872859223784_116_00005176826556435293_116_00003338886116348349_115_00001224744871391589_0,
  116_00008024013425000663_114_00000061035545968962_116_00004003684136536244_117_00003881351382404913_115_00000470550612096123_116_00003338886116348349_115_00001224744871391589_0,
  116_00008024013425000663_114_00000061035545968962_015_00001445955709826888_116_00010419799820996123_117_00042341856854871657_116_00003338886116348349_015_00000816496580927726_0,
  116_00007524053088724167_116_00005429545740840913_116_00005007727466525647_016_00006433396846033335_115_00000391997206183779_116_00003338886116348349_115_00001224744871391589_0,
  116_00008024013425000663_114_00000061035545968962_117_00007684334065703917_117_00006890850787231645_117_00034486516263637257_116_00003338886116348349_115_00001224744871391589_0,
  116_00008024013425000663_115_00000677756345295187_015_00004268433070797097_115_00002496571361099179_117_00029773311908896616_116_00003338886116348349_015_00000816496580927726_0,
  116_00008523973761276875_116_00007451572309007539_116_00008912340416484434_016_00014759678532720513_117_00026631175672402857_116_00003338886116348349_015_00000816496580927726_0,
  116_00008024013425000663_116_00007451572309007539_016_00004976925648368967_116_00005103017539135641_117_00023489039435909095_116_00003338886116348349_015_00000816496580927726_0,
  116_00008024013425000663_115_00000677756345295187_117_00036132228415403655_016_00012753345596169388_117_00020346903199415334_116_00003338886116348349_015_00000816496580927726_0,
  116_00008024013425000663_115_00000677756345295187_018_00029139010841842207_116_00001190668312860946_117_00017204766962921575_116_00003338886116348349_115_00001224744871391589_0,
  116_00008024013425000663_116_00007451572309007539_116_00008242978196491499_016_00008439729782584461_117_00012491562608180934_116_00003338886116348349_015_00000816496580927726_0,
  116_00008523973761276875_116_00007451572309007539_116_00010641526151466183_015_00001556221170734096_117_00009349426371687174_116_00003338886116348349_015_00000816496580927726_0,
  116_00008523973761276875_116_00008125581165062826_115_00001058574596646677_016_00012151445715204048_118_00062072901351934134_116_00003338886116348349_115_00001224744871391589_0,
  116_00008024013425000663_116_00007451572309007539_016_00009327780078323045_116_00010520116467823681_118_00014940857804527726_116_00003338886116348349_015_00000816496580927726_0,
  116_00008024013425000663_116_00007451572309007539_016_00005534727498363079_116_00007610933709824549_018_00016480504560409875_116_00003338886116348349_015_00000816496580927726_0,
  116_00008024013425000663_116_00008125581165062826_117_00045057058015309454_018_00011344809589729025_017_00004790186692534748_116_00003338886116348349_015_00000816496580927726_0,
  116_00007524053088724167_116_00007451572309007539_015_00001351129395327889_116_00012225499463892138_017_00007932322929028508_116_00003338886116348349_015_00000816496580927726_0,
  116_00007524053088724167_116_00008125581165062826_116_00011534009111456762_015_00001917361099313299_017_00011074459165522269_116_00003338886116348349_015_00000816496580927726_0,
  116_00008024013425000663_116_00008799590021118496_016_00002522597508394872_116_00008313150237617443_016_00001421659540201603_116_00003338886116348349_115_00001224744871391589_0,
  116_00008024013425000663_116_00009473598877173782_116_00002664959696550374_017_00020194643856208588_017_00018929799756756668_116_00003338886116348349_015_00000816496580927726_0,
  116_00008024013425000663_116_00010147607733229451_115_00000785251690149562_016_00007135613373826232_016_00002207193599325043_016_00029950108064592316_115_00001224744871391589_0,
  116_00008523973761276875_116_00010821616589285121_016_00002578377693394283_116_00009416633352720559_016_00002992727658448483_116_00003338886116348349_015_00000816496580927726_0,
  116_00009023934097553371_115_00001149562544534041_116_00003501662471541543_016_00003524214088034203_016_00003306941282097859_116_00003338886116348349_115_00001224744871391589_0,
  116_00009023934097553371_115_00001149562544534041_117_00045057058015309454_017_00018188310919657433_016_00003778261717571923_116_00003338886116348349_015_00000816496580927726_0,
  116_00009023934097553371_116_00010821616589285121_117_00016051361815615603_118_00008718519775782523_016_00004092475341221299_116_00003338886116348349_115_00001224744871391589_0,
  116_00009023934097553371_116_00010821616589285121_116_00008410318751489733_016_00013856828711272502_016_00004563795776695363_116_00003338886116348349_015_00000816496580927726_0,
  116_00009023934097553371_115_00001149562544534041_016_00037775674428022783_116_00023260330614923332_017_00048780094003447394_116_00003338886116348349_015_00000816496580927726_0,
  116_00009023934097553371_115_00001149562544534041_116_00007629396161497976_016_00011047962600100927_016_00005192223023994115_116_00003338886116348349_015_00000816496580927726_0,
  116_00010023854770106078_115_00001216963430139608_016_00030747371118096964_116_00021053364384717095_016_00005506436647643491_116_00003338886116348349_115_00001224744871391589_0,
  116_00010023854770106078_115_00001216963430139608_117_00044499256165315343_017_00021197810324484165_016_00005977757083117555_116_00003338886116348349_015_00000816496580927726_0,
  116_00010023854770106078_116_00012843643157451365_116_00007573615976498564_016_00004828330496792433_016_00006291970706766932_116_00003338886116348349_115_00001224744871391589_0,
  116_00009523894433829583_115_00001216963430139608_117_00009915541465680366_117_00006890850787231645_016_00006763291142240996_116_00003338886116348349_015_00000816496580927726_0,
  116_00009023934097553371_115_00001216963430139608_116_00007350495236500919_016_00007135613373826232_016_00007077504765890371_116_00003338886116348349_015_00000816496580927726_0,
  116_00009523894433829583_115_00001216963430139608_016_00006427210458353659_116_00004701750951825417_016_00007391718389539748_116_00003338886116348349_115_00001224744871391589_0,
  116_00009023934097553371_116_00010821616589285121_116_00004840386911527413_016_00003524214088034203_016_00007863038825013812_116_00003338886116348349_015_00000816496580927726_0,
  116_00008523973761276875_116_00010821616589285121_118_00060109285157215794_117_00026954180152742907_016_00008177252448663187_116_00003338886116348349_015_00000816496580927726_0,
  116_00009023934097553371_115_00001149562544534041_115_00001722358798139671_016_00019675194227270771_016_00008491466072312563_116_00003338886116348349_015_00000816496580927726_0,
  116_00009023934097553371_115_00001216963430139608_116_00004059464321535655_017_00024207309729310825_015_00000880567969596194_116_00003338886116348349_015_00000816496580927726_0,
  116_00009023934097553371_115_00001216963430139608_115_00000339010210154272_015_00001014511277865292_016_00009119893319611315_116_00003338886116348349_015_00000816496580927726_0,
  116_00009023934097553371_115_00001149562544534041_015_00002890662501311639_116_00022056530852992657_016_00009434106943260692_116_00003338886116348349_015_00000816496580927726_0,
  116_00008523973761276875_116_00010821616589285121_116_00002720739881549785_017_00017185144451381926_016_00009748320566910068_116_00003338886116348349_015_00000816496580927726_0,
  116_00008523973761276875_116_00010821616589285121_117_00030554209915462527_016_00003423897441206646_016_00010062534190559445_116_00003338886116348349_015_00000816496580927726_0,
  116_00008523973761276875_116_00010821616589285121_017_00030246191733895733_117_00029963679557569567_015_00001037674781420882_116_00003338886116348349_015_00000816496580927726_0,
  116_00008523973761276875_115_00001149562544534041_116_00005286628391522703_015_00000382516402851687_016_00010690961437858195_116_00003338886116348349_015_00000816496580927726_0,
  116_00008523973761276875_116_00010821616589285121_116_00005286628391522703_016_00007536879961136456_016_00011005175061507573_116_00003338886116348349_115_00001224744871391589_0,
  116_00009023934097553371_115_00001149562544534041_017_00011838730684090021_116_00007009033828859209_016_00011476495496981636_116_00003338886116348349_115_00001224744871391589_0,
  116_00009523894433829583_115_00001149562544534041_117_00004895324815733354_017_00020194643856208588_014_00000119478159324557_016_00029950108064592316_115_00001224744871391589_0,
  116_00009023934097553371_116_00010821616589285121_115_00001276117318144381_015_00002107962728285656_015_00001273334999157914_116_00003338886116348349_015_00000816496580927726_1,
  116_00009023934097553371_115_00001149562544534041_016_00005590507683362491_116_00006708083888376544_016_00013047563615228517_116_00003338886116348349_115_00001224744871391589_0,
  116_00009023934097553371_115_00001149562544534041_116_00007740956531496798_016_00008740679723067134_015_00001351888405070258_116_00003338886116348349_015_00000816496580927726_0,
  116_00008523973761276875_116_00010821616589285121_117_00029438606215474306_017_00042264306158271003_016_00013833097674351955_116_00003338886116348349_115_00001224744871391589_0,
  116_00009023934097553371_115_00001149562544534041_116_00005063507651525058_016_00003323580794379088_015_00001430441810982602_116_00003338886116348349_115_00001224744871391589_0,
  116_00009023934097553371_115_00001149562544534041_016_00008323736748333642_116_00008012200297134773_016_00014775738545300083_116_00003338886116348349_015_00000816496580927726_0,
  116_00009523894433829583_115_00001149562544534041_116_00004784606726528002_017_00015178811514830773_015_00001508995216894946_116_00003338886116348349_115_00001224744871391589_0,
  116_00009023934097553371_116_00010821616589285121_117_00023302785865539066_117_00022941514279640599_016_00015561272604423524_116_00003338886116348349_015_00000816496580927726_0,
  116_00009023934097553371_116_00010821616589285121_116_00010251064856470304_016_00009442896250860024_014_00000158754862280729_116_00003338886116348349_015_00000816496580927726_0,
  116_00009523894433829583_116_00010821616589285121_016_00002968838988390162_117_00017925681938262783_016_00016189699851722277_116_00003338886116348349_015_00000816496580927726_0,
  116_00010023854770106078_115_00001149562544534041_018_00029139010841842207_115_00000530365083279075_016_00016503913475371652_116_00003338886116348349_015_00000816496580927726_0,
  116_00010023854770106078_115_00001216963430139608_116_00009247021526480902_016_00011248595893756042_016_00016818127099021027_116_00003338886116348349_115_00001224744871391589_0,
  116_00010023854770106078_115_00001216963430139608_116_00009693263006476192_016_00012953978889824496_016_00017289447534495093_116_00003338886116348349_015_00000816496580927726_1,
  116_00010023854770106078_116_00012843643157451365_016_00018866191713222369_116_00015736582102856609_116_00016959837443286896_116_00003338886116348349_015_00000816496580927726_0,
  116_00010523815106382575_116_00012843643157451365_117_00004337522965739242_017_00008156646236901802_116_00016645623819637518_116_00003338886116348349_015_00000816496580927726_0,
  116_00010523815106382575_116_00013517652013507035_117_00021071578465562615_117_00032973178962396227_116_00016331410195988143_116_00003338886116348349_015_00000816496580927726_0,
  116_00010523815106382575_116_00013517652013507035_116_00002720739881549785_016_00006232763552378227_116_00016017196572338768_116_00003338886116348349_015_00000816496580927726_0]

/-- lr/data.csv 1602-1701 -/
def dataCsv16 : List ℕ := [
  116_00011023775442658785_116_00014865669725617991_018_00023560992341901083_016_00003724847381689319_115_00001570298294868939_116_00003338886116348349_115_00001224744871391589_0,
  116_00011023775442658785_116_00014865669725617991_016_00003247739913387218_117_00017925681938262783_116_00015231662513215327_116_00003338886116348349_015_00000816496580927726_0,
  116_00011023775442658785_116_00014191660869562706_016_00003415080468385452_116_00006507450594721428_115_00001491744888956595_016_00029950108064592316_115_00001224744871391589_0,
  116_00011023775442658785_116_00014865669725617991_014_00000046422445383725_116_00007911883650307214_116_00014131914830442511_116_00003338886116348349_115_00001224744871391589_0,
  116_00011023775442658785_116_00014865669725617991_116_00004840386911527413_118_00018750184458538297_116_00013660594394968446_116_00003338886116348349_015_00000816496580927726_0,
  116_00011023775442658785_116_00014865669725617991_116_00007964077271494443_015_00000252104761975864_115_00001334638077131907_116_00003338886116348349_015_00000816496580927726_0,
  116_00011023775442658785_116_00015539678581673662_117_00018840371065586167_118_00028781849141293357_116_00013032167147669695_116_00003338886116348349_015_00000816496580927726_0,
  116_00011023775442658785_116_00014865669725617991_116_00007071594311503863_016_00008339413135756903_116_00012717953524020318_116_00003338886116348349_015_00000816496580927726_0,
  116_00011023775442658785_116_00015539678581673662_116_00008131417826492676_116_00001993201487481394_116_00012403739900370943_116_00003338886116348349_015_00000816496580927726_0,
  116_00011523735778935282_116_00015539678581673662_017_00023552569533966383_116_00005103017539135641_116_00012089526276721567_116_00003338886116348349_015_00000816496580927726_0,
  116_00011023775442658785_116_00014865669725617991_017_00019090154734013484_117_00020935181343089515_115_00001177531265307219_116_00003338886116348349_015_00000816496580927726_0,
  116_00011023775442658785_116_00014191660869562706_015_00001044338377831127_115_00001272708269802992_116_00011461099029422814_116_00003338886116348349_115_00001224744871391589_0,
  116_00010523815106382575_116_00014191660869562706_019_00068269368420777075_118_00018750184458538297_116_00010989778593948751_116_00003338886116348349_115_00001224744871391589_0,
  116_00010523815106382575_116_00013517652013507035_116_00013542095771435567_015_00002298564357258013_116_00010518458158474686_116_00003338886116348349_015_00000816496580927726_0,
  116_00011023775442658785_116_00014191660869562706_016_00014682677838266525_116_00014231832400443263_115_00001020424453482531_116_00003338886116348349_115_00001224744871391589_0,
  116_00011023775442658785_116_00014191660869562706_116_00005119287836524469_016_00008640363076239577_116_00009732924099351247_116_00003338886116348349_015_00000816496580927726_0,
  116_00011023775442658785_116_00014865669725617991_016_00006873451938348949_116_00009316316705893005_115_00000941871047570187_016_00029950108064592316_115_00001224744871391589_0,
  116_00011023775442658785_116_00014865669725617991_017_00013512136234072358_115_00000570491742010098_115_00000863317641657843_116_00003338886116348349_015_00000816496580927726_0,
  116_00010523815106382575_116_00014865669725617991_115_00001409989762142968_016_00019574877580443213_116_00008318962792929054_116_00003338886116348349_015_00000816496580927726_0,
  116_00010523815106382575_116_00015539678581673662_017_00028572786183913396_116_00005403967479618307_116_00008004749169279678_116_00003338886116348349_015_00000816496580927726_0,
  116_00010523815106382575_116_00015539678581673662_116_00002609179511550963_016_00003724847381689319_116_00007690535545630302_116_00003338886116348349_015_00000816496580927726_0,
  116_00011523735778935282_116_00016213687437728947_016_00017025445608241796_116_00018144181626717961_116_00007376321921980926_116_00003338886116348349_015_00000816496580927726_0,
  116_00011523735778935282_116_00016213687437728947_118_00004329100157804543_117_00016922515469987276_115_00000706210829833155_016_00029950108064592316_115_00001224744871391589_0,
  116_00011523735778935282_116_00016213687437728947_016_00021320519853196465_116_00017141015158442399_115_00000627657423920811_116_00003338886116348349_015_00000816496580927726_0,
  116_00011023775442658785_116_00014865669725617991_115_00001276117318144381_015_00001796981123120231_116_00005962360615558734_116_00003338886116348349_115_00001224744871391589_0,
  116_00010523815106382575_116_00014865669725617991_116_00009693263006476192_016_00006934980080171117_115_00000549104018008467_116_00003338886116348349_015_00000816496580927726_0,
  116_00010523815106382575_116_00014865669725617991_116_00013151634476439689_016_00019374244286788098_116_00005176826556435293_116_00003338886116348349_115_00001224744871391589_0,
  116_00010523815106382575_116_00014865669725617991_117_00022187182165550842_117_00024947847216191754_115_00000470550612096123_116_00003338886116348349_015_00000816496580927726_0,
  116_00010523815106382575_116_00014865669725617991_116_00004896167096526824_117_00017925681938262783_116_00004391292497311854_116_00003338886116348349_015_00000816496580927726_0,
  116_00010523815106382575_116_00014191660869562706_116_00011310888371459118_015_00001445872859223784_117_00040770788736624775_116_00003338886116348349_115_00001224744871391589_0,
  116_00010523815106382575_116_00014191660869562706_116_00007071594311503863_017_00045273805563097663_117_00036057584381884134_116_00003338886116348349_015_00000816496580927726_0,
  116_00010023854770106078_116_00013517652013507035_116_00005900210426516227_117_00007894017255507152_117_00032915448145390375_116_00003338886116348349_015_00000816496580927726_0,
  116_00010523815106382575_116_00014191660869562706_116_00006290671721512106_016_00003624530734861761_117_00029773311908896616_116_00003338886116348349_015_00000816496580927726_0,
  116_00010523815106382575_116_00014191660869562706_116_00003501662471541543_016_00005229597084102664_117_00026631175672402857_116_00003338886116348349_015_00000816496580927726_0,
  116_00010523815106382575_116_00014191660869562706_115_00000740627542150033_015_00001857171111216765_117_00023489039435909095_016_00029950108064592316_115_00001224744871391589_0,
  116_00011023775442658785_116_00014865669725617991_116_00008689219676486789_016_00016565378175616523_117_00015633698844674693_116_00003338886116348349_015_00000816496580927726_0,
  116_00010523815106382575_116_00014865669725617991_117_00018840371065586167_117_00026954180152742907_117_00012491562608180934_116_00003338886116348349_015_00000816496580927726_0,
  116_00010523815106382575_116_00014865669725617991_016_00007040792493347183_116_00006106184007411204_117_00009349426371687174_116_00003338886116348349_015_00000816496580927726_0,
  116_00010523815106382575_116_00014865669725617991_116_00007908297086495032_016_00005028963790447548_118_00062072901351934134_116_00003338886116348349_015_00000816496580927726_0,
  116_00010523815106382575_116_00014865669725617991_117_00049519472815262355_016_00003524214088034203_117_00003065153898699653_116_00003338886116348349_115_00001224744871391589_0,
  116_00010023854770106078_116_00014865669725617991_016_00001574334363404881_117_00035982678367222964_018_00016480504560409875_116_00003338886116348349_015_00000816496580927726_0,
  116_00010023854770106078_116_00013517652013507035_017_00009049721434119458_117_00029963679557569567_017_00004790186692534748_116_00003338886116348349_115_00001224744871391589_0,
  116_00010023854770106078_116_00014865669725617991_016_00002745718248392517_117_00046014343049978595_017_00009503391047275388_016_00029950108064592316_115_00001224744871391589_0,
  116_00010023854770106078_116_00014865669725617991_116_00004784606726528002_117_00022941514279640599_016_00001735873163850979_116_00003338886116348349_015_00000816496580927726_0,
  116_00010023854770106078_116_00014865669725617991_014_00000046422445383725_116_00006708083888376544_016_00002050086787500355_116_00003338886116348349_015_00000816496580927726_0,
  116_00010523815106382575_116_00014865669725617991_118_00004329100157804543_117_00014916182533436123_016_00002364300411149731_116_00003338886116348349_015_00000816496580927726_0,
  116_00010523815106382575_116_00015539678581673662_117_00006568730365715691_017_00028219975602413067_016_00002678514034799107_116_00003338886116348349_115_00001224744871391589_0,
  116_00011023775442658785_116_00014865669725617991_016_00012395690253290663_115_00001112201634878902_016_00003149834470273171_116_00003338886116348349_015_00000816496580927726_0,
  116_00010523815106382575_116_00014865669725617991_116_00009247021526480902_015_00001024542942548048_016_00003464048093922547_116_00003338886116348349_015_00000816496580927726_0,
  116_00010023854770106078_116_00014191660869562706_117_00031669813615450754_117_00021938347811365091_016_00003778261717571923_016_00029950108064592316_115_00001224744871391589_0,
  116_00010023854770106078_116_00014191660869562706_116_00006792693386506806_016_00011047962600100927_016_00004563795776695363_116_00003338886116348349_115_00001224744871391589_0,
  116_00010023854770106078_116_00014865669725617991_115_00000696003394150504_016_00011750179127893825_016_00005035116212169427_116_00003338886116348349_015_00000816496580927726_0,
  116_00010523815106382575_116_00014865669725617991_016_00005367386943364846_116_00006005867360583647_016_00005349329835818804_016_00029950108064592316_115_00001224744871391589_0,
  116_00010023854770106078_116_00014865669725617991_116_00008521879121488555_015_00001736791135023697_016_00006134863894942243_116_00003338886116348349_015_00000816496580927726_0,
  116_00009023934097553371_116_00012843643157451365_116_00008912340416484434_016_00022383743691614786_016_00006449077518591619_116_00003338886116348349_015_00000816496580927726_0,
  116_00009023934097553371_116_00013517652013507035_017_00021321362133989932_117_00040998510708600777_016_00006763291142240996_116_00003338886116348349_115_00001224744871391589_0,
  116_00009023934097553371_116_00012843643157451365_117_00003779721115745129_015_00000252104761975864_015_00000723461157771506_116_00003338886116348349_015_00000816496580927726_0,
  116_00009523894433829583_116_00013517652013507035_115_00000919124134148149_016_00008840996369894685_016_00007548825201364435_116_00003338886116348349_115_00001224744871391589_0,
  116_00009523894433829583_116_00013517652013507035_017_00017416749184031147_116_00004701750951825417_016_00008020145636838499_016_00029950108064592316_115_00001224744871391589_0,
  116_00009523894433829583_116_00013517652013507035_016_00008825758413328343_116_00009015366765410335_015_00000880567969596194_116_00003338886116348349_015_00000816496580927726_0,
  116_00009023934097553371_116_00013517652013507035_117_00022187182165550842_016_00004126113968999543_016_00009119893319611315_116_00003338886116348349_015_00000816496580927726_0,
  116_00009023934097553371_116_00013517652013507035_116_00007127374496503274_015_00000723593002065379_016_00009434106943260692_116_00003338886116348349_115_00001224744871391589_0,
  116_00009023934097553371_116_00014191660869562706_117_00042825850615333005_016_00005530547024585329_016_00009905427378734756_016_00029950108064592316_115_00001224744871391589_0,
  116_00009523894433829583_116_00014191660869562706_015_00001228412988329184_116_00011422966289271685_016_00010690961437858195_116_00003338886116348349_115_00001224744871391589_0,
  116_00009023934097553371_116_00013517652013507035_118_00021063155657627917_116_00001993201487481394_015_00001116228187333226_116_00003338886116348349_015_00000816496580927726_0,
  116_00009023934097553371_116_00014191660869562706_116_00002664959696550374_118_00028781849141293357_016_00011476495496981636_016_00029950108064592316_115_00001224744871391589_0,
  116_00009023934097553371_116_00014191660869562706_017_00006818514034143008_115_00000399953442403252_016_00012262029556105076_116_00003338886116348349_015_00000816496580927726_0,
  116_00009023934097553371_116_00014191660869562706_016_00012841931733285954_116_00012827399344857475_016_00012576243179754452_116_00003338886116348349_015_00000816496580927726_0,
  116_00009023934097553371_116_00014191660869562706_017_00006818514034143008_116_00005905550713756088_016_00012890456803403827_116_00003338886116348349_015_00000816496580927726_0,
  116_00009023934097553371_116_00014191660869562706_018_00029139010841842207_116_00008614100178100111_016_00013204670427053204_116_00003338886116348349_015_00000816496580927726_0,
  116_00009023934097553371_116_00014865669725617991_118_00060109285157215794_116_00008915050118582778_015_00001351888405070258_116_00003338886116348349_015_00000816496580927726_0,
  116_00009523894433829583_116_00014191660869562706_017_00041960030583772095_117_00042001677176876356_016_00013833097674351955_116_00003338886116348349_015_00000816496580927726_0,
  116_00009523894433829583_116_00014865669725617991_116_00005955990611515638_016_00009844162838170248_016_00014147311298001333_116_00003338886116348349_015_00000816496580927726_0,
  116_00009523894433829583_116_00014865669725617991_116_00008633439491487378_016_00003724847381689319_016_00014461524921650708_116_00003338886116348349_115_00001224744871391589_0,
  116_00009523894433829583_116_00014865669725617991_019_00068269368420777075_117_00021938347811365091_016_00014932845357124773_116_00003338886116348349_015_00000816496580927726_0,
  116_00010023854770106078_116_00015539678581673662_116_00007350495236500919_016_00003925480675344427_016_00015247058980774149_116_00003338886116348349_015_00000816496580927726_0,
  116_00010523815106382575_116_00016213687437728947_116_00006736913201507395_016_00003022630853896422_016_00015561272604423524_016_00029950108064592316_115_00001224744871391589_0,
  116_00010523815106382575_116_00016887696293784618_016_00006036749163357781_116_00009216000059065448_016_00016346806663546964_116_00003338886116348349_115_00001224744871391589_0,
  116_00010023854770106078_116_00016887696293784618_016_00005869408608359546_116_00007209667122514325_016_00016818127099021027_116_00003338886116348349_015_00000816496580927726_0,
  116_00010023854770106078_116_00016887696293784618_016_00014124875988272412_116_00012125182817064584_016_00017132340722670405_116_00003338886116348349_015_00000816496580927726_0,
  116_00010523815106382575_116_00017561705149840288_016_00003972882318379565_116_00005403967479618307_015_00001744655434631978_116_00003338886116348349_115_00001224744871391589_0,
  116_00011023775442658785_116_00018235714005895574_016_00014794238208265347_115_00001403119910678815_016_00017917874781793846_116_00003338886116348349_115_00001224744871391589_0,
  116_00010523815106382575_116_00017561705149840288_016_00003638201208383097_117_00038992177772049624_016_00018389195217267909_016_00029950108064592316_115_00001224744871391589_1,
  116_00010523815106382575_116_00017561705149840288_116_00007573615976498564_016_00012853662242996937_116_00016959837443286896_116_00003338886116348349_115_00001224744871391589_0,
  116_00011023775442658785_116_00018235714005895574_115_00000562130950151917_017_00045273805563097663_115_00001648851700781283_116_00003338886116348349_015_00000816496580927726_0,
  116_00010523815106382575_116_00018235714005895574_016_00015909841908253572_116_00013730249166305482_116_00016174303384163455_116_00003338886116348349_015_00000816496580927726_0,
  116_00010523815106382575_116_00018235714005895574_016_00006929232123348361_116_00011322649642444131_116_00015860089760514078_016_00029950108064592316_115_00001224744871391589_0,
  116_00010523815106382575_116_00018235714005895574_117_00020513776615568505_117_00032973178962396227_115_00001507455570139064_116_00003338886116348349_015_00000816496580927726_0,
  116_00010523815106382575_116_00017561705149840288_017_00037497615783819194_117_00045011176581703016_116_00014760342077741262_116_00003338886116348349_015_00000816496580927726_0,
  116_00010523815106382575_116_00016887696293784618_017_00012396532534084133_117_00022941514279640599_116_00014446128454091887_116_00003338886116348349_015_00000816496580927726_0,
  116_00010523815106382575_116_00017561705149840288_116_00005788650056517404_016_00002922314207068864_116_00014131914830442511_116_00003338886116348349_115_00001224744871391589_0,
  116_00010523815106382575_116_00016887696293784618_017_00035266408383842746_117_00016922515469987276_116_00013660594394968446_116_00003338886116348349_015_00000816496580927726_0,
  116_00009523894433829583_116_00016213687437728947_016_00012563030808288898_116_00012325816110719694_115_00001334638077131907_116_00003338886116348349_115_00001224744871391589_0,
  116_00010023854770106078_116_00016887696293784618_016_00008044835823336586_116_00012225499463892138_116_00012875060335845006_016_00029950108064592316_115_00001224744871391589_0,
  116_00010023854770106078_116_00016887696293784618_017_00044191237983748544_117_00048020675986529676_116_00012089526276721567_116_00003338886116348349_015_00000816496580927726_0,
  116_00010023854770106078_116_00016213687437728947_117_00016609163665609716_016_00001618197798310635_115_00001177531265307219_116_00003338886116348349_015_00000816496580927726_0,
  116_00010523815106382575_116_00016213687437728947_017_00006260712184148895_117_00009900350192058306_116_00011461099029422814_116_00003338886116348349_015_00000816496580927726_0,
  116_00010523815106382575_116_00016213687437728947_117_00011031145165668592_016_00004025797322171985_115_00001114688540577344_116_00003338886116348349_115_00001224744871391589_0,
  116_00010523815106382575_116_00016213687437728947_117_00032227615465444864_116_00001993201487481394_116_00010675564970299374_116_00003338886116348349_015_00000816496580927726_0,
  116_00009523894433829583_116_00015539678581673662_116_00013932557066431446_016_00008339413135756903_116_00010361351346649998_116_00003338886116348349_015_00000816496580927726_0]

/-- lr/data.csv 1702-1801 -/
def dataCsv17 : List ℕ := [
  116_00010023854770106078_116_00016213687437728947_016_00017025445608241796_115_00001623816533699439_116_00010047137723000623_116_00003338886116348349_115_00001224744871391589_0,
  116_00010023854770106078_116_00015539678581673662_116_00003334321916543309_015_00000252104761975864_116_00009575817287526558_116_00003338886116348349_015_00000816496580927726_0,
  116_00010023854770106078_116_00015539678581673662_115_00000606755098151446_016_00007336246667481341_116_00009261603663877183_116_00003338886116348349_015_00000816496580927726_0,
  116_00009523894433829583_116_00014865669725617991_016_00005423167128364257_117_00032973178962396227_116_00008947390040227806_116_00003338886116348349_115_00001224744871391589_0,
  116_00009523894433829583_116_00014865669725617991_116_00001995597476557439_016_00004728013849964882_116_00008476069604753742_116_00003338886116348349_115_00001224744871391589_0,
  116_00009523894433829583_116_00014865669725617991_016_00003861321948380742_116_00007410300416169433_116_00008004749169279678_116_00003338886116348349_115_00001224744871391589_0,
  116_00009023934097553371_116_00014865669725617991_117_00009915541465680366_016_00002922314207068864_116_00007533428733805614_116_00003338886116348349_015_00000816496580927726_0,
  116_00009023934097553371_116_00014865669725617991_115_00000556552931651976_016_00001618197798310635_116_00007219215110156237_116_00003338886116348349_015_00000816496580927726_0,
  116_00009023934097553371_116_00014865669725617991_017_00049211454633695556_116_00008513783531272554_116_00006905001486506862_116_00003338886116348349_015_00000816496580927726_0,
  116_00009023934097553371_116_00014865669725617991_016_00011726328033297728_116_00013930882459960594_116_00006590787862857486_116_00003338886116348349_015_00000816496580927726_0,
  116_00009023934097553371_116_00014865669725617991_117_00004895324815733354_117_00040998510708600777_115_00000627657423920811_116_00003338886116348349_015_00000816496580927726_0,
  116_00009023934097553371_116_00014865669725617991_116_00010251064856470304_016_00011348912540583593_116_00005962360615558734_116_00003338886116348349_015_00000816496580927726_0,
  116_00008523973761276875_116_00014191660869562706_017_00006818514034143008_116_00006206500654238761_116_00005648146991909357_116_00003338886116348349_015_00000816496580927726_0,
  116_00009023934097553371_116_00014865669725617991_117_00013262352565645041_016_00006734346786516008_116_00005333933368259982_116_00003338886116348349_015_00000816496580927726_0,
  116_00009023934097553371_116_00014865669725617991_116_00008410318751489733_016_00008640363076239577_116_00005019719744610606_116_00003338886116348349_015_00000816496580927726_0,
  116_00009023934097553371_116_00014865669725617991_016_00002578377693394283_116_00005403967479618307_115_00000470550612096123_116_00003338886116348349_015_00000816496580927726_0,
  116_00009523894433829583_116_00015539678581673662_117_00008799937765692141_117_00022941514279640599_116_00004391292497311854_116_00003338886116348349_015_00000816496580927726_0,
  116_00009023934097553371_116_00016213687437728947_116_00009470142266478546_016_00014559045239065398_117_00040770788736624775_116_00003338886116348349_015_00000816496580927726_0,
  116_00009023934097553371_116_00015539678581673662_016_00007933275453337764_116_00009015366765410335_117_00037628652500131016_116_00003338886116348349_115_00001224744871391589_0,
  116_00009023934097553371_116_00015539678581673662_116_00001995597476557439_117_00016922515469987276_117_00032915448145390375_116_00003338886116348349_015_00000816496580927726_0,
  116_00009023934097553371_116_00015539678581673662_117_00044499256165315343_017_00045273805563097663_117_00029773311908896616_116_00003338886116348349_015_00000816496580927726_0,
  116_00009023934097553371_116_00015539678581673662_016_00008323736748333642_116_00007610933709824549_117_00026631175672402857_116_00003338886116348349_015_00000816496580927726_0,
  116_00009023934097553371_116_00015539678581673662_016_00023049705588178213_116_00018445131567200628_117_00023489039435909095_116_00003338886116348349_115_00001224744871391589_0,
  116_00009023934097553371_116_00014865669725617991_016_00027344779833132877_115_00002015051456326909_117_00018775835081168454_116_00003338886116348349_015_00000816496580927726_0,
  116_00008523973761276875_116_00014865669725617991_117_00045614859865303564_015_00001255271230251427_117_00015633698844674693_116_00003338886116348349_115_00001224744871391589_0,
  116_00008523973761276875_116_00014865669725617991_116_00008187198011492087_016_00010446062719135587_117_00010920494489934053_116_00003338886116348349_115_00001224744871391589_0,
  116_00008523973761276875_116_00014865669725617991_016_00020483817078205293_116_00017943548333062846_118_00062072901351934134_116_00003338886116348349_015_00000816496580927726_0,
  116_00008523973761276875_116_00015539678581673662_017_00035266408383842746_116_00006607767241548985_117_00003065153898699653_116_00003338886116348349_115_00001224744871391589_0,
  116_00008523973761276875_116_00015539678581673662_116_00004115244506535067_016_00009442896250860024_018_00016480504560409875_116_00003338886116348349_015_00000816496580927726_0,
  116_00008523973761276875_116_00015539678581673662_115_00000556552931651976_015_00000382516402851687_017_00004790186692534748_116_00003338886116348349_115_00001224744871391589_0,
  116_00008523973761276875_116_00014865669725617991_116_00011645569481455584_016_00015461895060513404_017_00009503391047275388_116_00003338886116348349_115_00001224744871391589_0,
  116_00008523973761276875_116_00014191660869562706_117_00029996408065468416_017_00020194643856208588_016_00001421659540201603_116_00003338886116348349_115_00001224744871391589_0,
  116_00008024013425000663_116_00014191660869562706_016_00008993098968326577_116_00011824232876581913_017_00018929799756756668_016_00029950108064592316_115_00001224744871391589_0,
  116_00008024013425000663_116_00013517652013507035_117_00013262352565645041_017_00028219975602413067_016_00002678514034799107_116_00003338886116348349_015_00000816496580927726_0,
  116_00007524053088724167_116_00012843643157451365_117_00021071578465562615_117_00007894017255507152_016_00002992727658448483_116_00003338886116348349_115_00001224744871391589_0,
  116_00008024013425000663_116_00013517652013507035_116_00008856560231485022_016_00007637196607964014_016_00003464048093922547_116_00003338886116348349_015_00000816496580927726_0,
  116_00008024013425000663_116_00014191660869562706_018_00029139010841842207_117_00040998510708600777_016_00003778261717571923_116_00003338886116348349_015_00000816496580927726_0,
  116_00008024013425000663_116_00014191660869562706_015_00001139164692330126_115_00001272708269802992_016_00004092475341221299_116_00003338886116348349_015_00000816496580927726_0,
  116_00008024013425000663_116_00014191660869562706_015_00002282658484818057_116_00018645764860855742_017_00044066889648706753_016_00029950108064592316_115_00001224744871391589_0,
  116_00007524053088724167_116_00014191660869562706_116_00015550182431414372_016_00014258095298582731_016_00005192223023994115_016_00029950108064592316_115_00001224744871391589_0,
  116_00007524053088724167_116_00014191660869562706_016_00005646287868361902_116_00006908717182031652_016_00005977757083117555_116_00003338886116348349_115_00001224744871391589_0,
  116_00007524053088724167_116_00013517652013507035_116_00009804823376475014_016_00009242262957204916_016_00006449077518591619_116_00003338886116348349_115_00001224744871391589_0,
  116_00007524053088724167_116_00013517652013507035_116_00008912340416484434_015_00000964352954451514_016_00006920397954065683_116_00003338886116348349_015_00000816496580927726_0,
  116_00007524053088724167_116_00013517652013507035_016_00009718241373318923_116_00014231832400443263_015_00000723461157771506_116_00003338886116348349_115_00001224744871391589_0,
  116_00007524053088724167_116_00013517652013507035_117_00043383652465327116_016_00011950812421548933_016_00007705932013189124_116_00003338886116348349_115_00001224744871391589_0,
  116_00007524053088724167_116_00013517652013507035_016_00004753804908371322_115_00001021916652734101_016_00008177252448663187_116_00003338886116348349_015_00000816496580927726_0,
  116_00008024013425000663_116_00013517652013507035_117_00007126532215709803_017_00011166145641728534_016_00008491466072312563_116_00003338886116348349_015_00000816496580927726_0,
  116_00008024013425000663_116_00014191660869562706_015_00004697940495292563_116_00025868563432439795_015_00000880567969596194_116_00003338886116348349_015_00000816496580927726_0,
  116_00008024013425000663_116_00015539678581673662_017_00048653652783701445_116_00008915050118582778_016_00009119893319611315_016_00029950108064592316_115_00001224744871391589_0,
  116_00008523973761276875_116_00015539678581673662_017_00020763560283995822_116_00006206500654238761_016_00009905427378734756_116_00003338886116348349_015_00000816496580927726_0,
  116_00008024013425000663_116_00014865669725617991_017_00043633436133754433_116_00008413466884444997_016_00010219641002384132_116_00003338886116348349_115_00001224744871391589_0,
  116_00008523973761276875_116_00016213687437728947_014_00000224919037381841_115_00001944829803547619_016_00010690961437858195_116_00003338886116348349_015_00000816496580927726_0,
  116_00009023934097553371_116_00016213687437728947_116_00002609179511550963_117_00027957346621018414_016_00011005175061507573_116_00003338886116348349_015_00000816496580927726_0,
  116_00009023934097553371_116_00016887696293784618_117_00038363435815380104_016_00011348912540583593_016_00011319388685156948_116_00003338886116348349_015_00000816496580927726_0,
  116_00010023854770106078_116_00017561705149840288_116_00004226804876533889_016_00006533713492860893_016_00011633602308806323_116_00003338886116348349_115_00001224744871391589_0,
  116_00010023854770106078_116_00018235714005895574_116_00006402232091510928_016_00006533713492860893_016_00012104922744280389_116_00003338886116348349_015_00000816496580927726_0,
  116_00009523894433829583_116_00017561705149840288_116_00009804823376475014_016_00020176777461408553_016_00012419136367929764_116_00003338886116348349_115_00001224744871391589_0,
  116_00009523894433829583_116_00017561705149840288_116_00011366668556458528_016_00016264428235133859_016_00012890456803403827_116_00003338886116348349_115_00001224744871391589_0,
  116_00009523894433829583_116_00017561705149840288_016_00003861321948380742_116_00006106184007411204_016_00013361777238877892_116_00003338886116348349_015_00000816496580927726_0,
  116_00010023854770106078_116_00017561705149840288_017_00037497615783819194_117_00048020675986529676_016_00013675990862527267_016_00029950108064592316_115_00001224744871391589_0,
  116_00009523894433829583_116_00016887696293784618_016_00008100616008335997_116_00006908717182031652_016_00014461524921650708_116_00003338886116348349_015_00000816496580927726_0,
  116_00009523894433829583_116_00016213687437728947_015_00002293814521817939_116_00019749247975958861_016_00014775738545300083_116_00003338886116348349_015_00000816496580927726_0,
  116_00009023934097553371_116_00016213687437728947_117_00043941454315321227_016_00008640363076239577_015_00001508995216894946_016_00029950108064592316_115_00001224744871391589_0,
  116_00009023934097553371_116_00016213687437728947_117_00015493559965621492_116_00009015366765410335_014_00000158754862280729_116_00003338886116348349_015_00000816496580927726_1,
  116_00009023934097553371_116_00016213687437728947_115_00001231493170144852_016_00015762845000996077_116_00016959837443286896_016_00029950108064592316_115_00001224744871391589_0,
  116_00009023934097553371_116_00016213687437728947_116_00009525922451477957_016_00011850495774721375_116_00016174303384163455_116_00003338886116348349_015_00000816496580927726_0,
  116_00008523973761276875_116_00015539678581673662_016_00009941362113316569_116_00012927715991685031_116_00015860089760514078_116_00003338886116348349_115_00001224744871391589_0,
  116_00008523973761276875_116_00015539678581673662_117_00010473343315674478_017_00014175645046555194_116_00015388769325040015_116_00003338886116348349_115_00001224744871391589_0,
  116_00008523973761276875_116_00014865669725617991_117_00029996408065468416_017_00020194643856208588_115_00001491744888956595_116_00003338886116348349_115_00001224744871391589_0,
  116_00008024013425000663_116_00014191660869562706_016_00024667330953161137_116_00016840065217959728_116_00014446128454091887_116_00003338886116348349_015_00000816496580927726_0,
  116_00008024013425000663_116_00014191660869562706_017_00036939813933825083_116_00009015366765410335_116_00014131914830442511_016_00029950108064592316_115_00001224744871391589_0,
  116_00008024013425000663_116_00014191660869562706_116_00005175068021523881_016_00005329913730930215_115_00001334638077131907_116_00003338886116348349_015_00000816496580927726_0,
  116_00008024013425000663_116_00013517652013507035_116_00001716696551560383_015_00000793814654844668_116_00013032167147669695_116_00003338886116348349_015_00000816496580927726_0,
  116_00007524053088724167_116_00013517652013507035_116_00008633439491487378_016_00019574877580443213_116_00012717953524020318_116_00003338886116348349_015_00000816496580927726_0,
  116_00007524053088724167_116_00013517652013507035_117_00011031145165668592_117_00026954180152742907_116_00012403739900370943_116_00003338886116348349_115_00001224744871391589_0,
  116_00007524053088724167_116_00013517652013507035_116_00007517835791499152_016_00008138779842101795_116_00011932419464896877_116_00003338886116348349_015_00000816496580927726_0,
  116_00007524053088724167_116_00012843643157451365_017_00014069938084066472_116_00008915050118582778_116_00011618205841247502_116_00003338886116348349_015_00000816496580927726_0,
  116_00007024092752447672_115_00001216963430139608_017_00009049721434119458_117_00031970012494120725_116_00011303992217598127_016_00029950108064592316_115_00001224744871391589_0,
  116_00007024092752447672_115_00001216963430139608_115_00001192447040645264_016_00014057462004927617_116_00010518458158474686_116_00003338886116348349_015_00000816496580927726_0,
  116_00007024092752447672_115_00001216963430139608_116_00002832300251548608_016_00004025797322171985_115_00001020424453482531_116_00003338886116348349_115_00001224744871391589_0,
  116_00007524053088724167_115_00001216963430139608_016_00003136179543388396_116_00007711250356652106_116_00009732924099351247_116_00003338886116348349_015_00000816496580927726_0,
  116_00007524053088724167_116_00012843643157451365_016_00006873451938348949_116_00011422966289271685_115_00000941871047570187_116_00003338886116348349_015_00000816496580927726_0,
  116_00008024013425000663_116_00013517652013507035_017_00017974551034025257_116_00002595101368446733_116_00009104496852052494_116_00003338886116348349_015_00000816496580927726_0,
  116_00008523973761276875_116_00013517652013507035_017_00007934117734131232_017_00010162979173452956_116_00008790283228403118_016_00029950108064592316_115_00001224744871391589_0,
  116_00008523973761276875_116_00013517652013507035_015_00007514839837762832_116_00036301494702505654_116_00008004749169279678_116_00003338886116348349_015_00000816496580927726_1,
  116_00009023934097553371_116_00013517652013507035_118_00004329100157804543_117_00017925681938262783_116_00007690535545630302_116_00003338886116348349_015_00000816496580927726_0,
  116_00008024013425000663_115_00001216963430139608_017_00044191237983748544_116_00007009033828859209_116_00007376321921980926_116_00003338886116348349_015_00000816496580927726_0,
  116_00008024013425000663_115_00001216963430139608_116_00009749043191475603_016_00005931813611895553_115_00000706210829833155_116_00003338886116348349_015_00000816496580927726_0,
  116_00008523973761276875_116_00013517652013507035_116_00005398188761521525_016_00007336246667481341_116_00006747894674682174_116_00003338886116348349_015_00000816496580927726_0,
  116_00009023934097553371_116_00014191660869562706_116_00012593832626445576_016_00027399576032992603_116_00006433681051032798_116_00003338886116348349_015_00000816496580927726_1,
  116_00009023934097553371_116_00014191660869562706_015_00001719278616324003_114_00000164387986306495_116_00006119467427383422_116_00003338886116348349_015_00000816496580927726_0,
  116_00009523894433829583_116_00014865669725617991_117_00008242135915698029_017_00008156646236901802_116_00005805253803734046_116_00003338886116348349_015_00000816496580927726_0,
  116_00009523894433829583_116_00015539678581673662_116_00005230848206523292_016_00008038463195274238_115_00000549104018008467_116_00003338886116348349_115_00001224744871391589_0,
  116_00009523894433829583_116_00014865669725617991_016_00012395690253290663_116_00011824232876581913_116_00005019719744610606_116_00003338886116348349_015_00000816496580927726_0,
  116_00009523894433829583_116_00014865669725617991_117_00013820154415639155_016_00003524214088034203_115_00000470550612096123_116_00003338886116348349_115_00001224744871391589_0,
  116_00009523894433829583_116_00015539678581673662_117_00022744984015544953_117_00016922515469987276_117_00042341856854871657_116_00003338886116348349_115_00001224744871391589_0,
  116_00009523894433829583_116_00016213687437728947_018_00017982973841959956_117_00028960513089293993_117_00037628652500131016_016_00029950108064592316_115_00001224744871391589_0,
  116_00010023854770106078_116_00016213687437728947_116_00001716696551560383_017_00018188310919657433_117_00029773311908896616_116_00003338886116348349_115_00001224744871391589_0,
  116_00010023854770106078_116_00016887696293784618_116_00006011770796515049_016_00012953978889824496_117_00025060107554155975_116_00003338886116348349_115_00001224744871391589_0,
  116_00010023854770106078_116_00016887696293784618_116_00006234891536512694_016_00005129280437275106_117_00020346903199415334_116_00003338886116348349_115_00001224744871391589_0]

/-- lr/data.csv 1802-1901 -/
def dataCsv18 : List ℕ := [
  116_00010023854770106078_116_00016887696293784618_117_00008242135915698029_116_00003698584483549854_117_00015633698844674693_116_00003338886116348349_115_00001224744871391589_0,
  116_00010023854770106078_116_00016887696293784618_116_00006234891536512694_016_00003624530734861761_117_00010920494489934053_116_00003338886116348349_115_00001224744871391589_0,
  116_00009523894433829583_116_00016213687437728947_116_00002386058771553318_016_00004126113968999543_118_00062072901351934134_016_00029950108064592316_115_00001224744871391589_0,
  116_00009523894433829583_116_00015539678581673662_116_00008410318751489733_017_00003140813895523986_018_00016480504560409875_116_00003338886116348349_015_00000816496580927726_0,
  116_00009523894433829583_116_00015539678581673662_116_00002441838956552729_016_00008138779842101795_017_00004790186692534748_116_00003338886116348349_015_00000816496580927726_0,
  116_00009523894433829583_116_00015539678581673662_116_00009079680971482668_016_00016264428235133859_017_00007932322929028508_016_00029950108064592316_115_00001224744871391589_0,
  116_00010023854770106078_116_00016213687437728947_017_00030246191733895733_116_00007811567003479657_016_00001578766352026291_016_00029950108064592316_115_00001224744871391589_0,
  116_00010023854770106078_116_00016213687437728947_016_00006427210458353659_115_00001112201634878902_016_00002364300411149731_116_00003338886116348349_015_00000816496580927726_0,
  116_00009523894433829583_116_00015539678581673662_015_00005735451936281613_116_00027272996488025583_016_00002678514034799107_116_00003338886116348349_015_00000816496580927726_1,
  116_00009523894433829583_116_00015539678581673662_015_00001273037136328713_116_00013028032638512588_016_00002992727658448483_116_00003338886116348349_015_00000816496580927726_0,
  116_00009523894433829583_116_00016213687437728947_116_00009749043191475603_016_00013856828711272502_016_00003306941282097859_116_00003338886116348349_015_00000816496580927726_0,
  116_00009523894433829583_116_00014865669725617991_017_00016858947334037033_116_00008814733471755224_017_00036211549057472353_116_00003338886116348349_115_00001224744871391589_0,
  116_00009023934097553371_116_00014865669725617991_116_00003501662471541543_117_00031970012494120725_016_00004092475341221299_116_00003338886116348349_015_00000816496580927726_0,
  116_00009523894433829583_116_00015539678581673662_116_00003334321916543309_016_00005028963790447548_017_00044066889648706753_116_00003338886116348349_015_00000816496580927726_0,
  116_00009523894433829583_116_00015539678581673662_016_00006204089718356014_116_00005905550713756088_016_00004720902588520051_116_00003338886116348349_015_00000816496580927726_0,
  116_00009523894433829583_116_00016213687437728947_017_00014627739934060582_116_00003698584483549854_016_00005035116212169427_116_00003338886116348349_115_00001224744871391589_0,
  116_00009523894433829583_116_00016213687437728947_117_00043941454315321227_016_00006533713492860893_016_00005506436647643491_116_00003338886116348349_015_00000816496580927726_0,
  116_00009523894433829583_116_00015539678581673662_016_00006985012308347772_116_00012426132757547248_016_00005820650271292868_116_00003338886116348349_015_00000816496580927726_0,
  116_00009523894433829583_116_00015539678581673662_116_00005788650056517404_016_00000915981270517738_016_00006134863894942243_116_00003338886116348349_115_00001224744871391589_0,
  116_00009523894433829583_116_00016213687437728947_016_00029408646678111094_116_00020852731091061982_016_00006606184330416307_116_00003338886116348349_115_00001224744871391589_0,
  116_00009523894433829583_116_00016887696293784618_117_00025533993265515514_016_00003724847381689319_016_00007077504765890371_116_00003338886116348349_015_00000816496580927726_0,
  116_00009523894433829583_116_00016213687437728947_116_00010306845041469714_016_00003323580794379088_016_00007391718389539748_116_00003338886116348349_015_00000816496580927726_0,
  116_00009523894433829583_116_00016213687437728947_116_00002832300251548608_117_00005887684318956068_016_00007705932013189124_116_00003338886116348349_015_00000816496580927726_0,
  116_00009523894433829583_116_00015539678581673662_115_00000696003394150504_016_00008740679723067134_016_00008020145636838499_116_00003338886116348349_015_00000816496580927726_0,
  116_00009523894433829583_116_00016887696293784618_116_00008242978196491499_015_00001746822799706453_016_00008334359260487876_116_00003338886116348349_015_00000816496580927726_0,
  116_00010023854770106078_116_00016887696293784618_015_00001367863450827712_116_00012225499463892138_016_00008648572884137251_116_00003338886116348349_115_00001224744871391589_0,
  116_00011023775442658785_116_00018235714005895574_117_00012704550715650928_018_00011344809589729025_016_00009119893319611315_016_00029950108064592316_115_00001224744871391589_0,
  116_00010523815106382575_116_00018235714005895574_116_00006625352831508573_016_00007837829901619122_016_00009905427378734756_116_00003338886116348349_115_00001224744871391589_0,
  116_00011023775442658785_116_00018909722861951244_116_00010474185596467949_016_00016364744881961408_015_00001037674781420882_116_00003338886116348349_015_00000816496580927726_0,
  116_00011023775442658785_116_00018909722861951244_014_00000190335322682206_115_00001704069851161484_016_00010690961437858195_116_00003338886116348349_015_00000816496580927726_0,
  116_00011023775442658785_116_00018235714005895574_016_00017862148383232965_116_00016037532043339278_016_00011005175061507573_116_00003338886116348349_015_00000816496580927726_0,
  116_00011023775442658785_116_00018235714005895574_116_00012482272256446754_016_00014057462004927617_016_00011319388685156948_116_00003338886116348349_115_00001224744871391589_0,
  116_00011023775442658785_116_00017561705149840288_116_00011645569481455584_016_00011750179127893825_015_00001179070912063101_116_00003338886116348349_115_00001224744871391589_0,
  116_00011023775442658785_116_00018235714005895574_116_00011812910036453819_015_00002107962728285656_016_00012262029556105076_116_00003338886116348349_015_00000816496580927726_1,
  116_00011023775442658785_116_00018909722861951244_117_00022744984015544953_116_00001892884840653836_016_00012576243179754452_116_00003338886116348349_015_00000816496580927726_0,
  116_00011023775442658785_116_00018235714005895574_017_00009049721434119458_117_00042001677176876356_016_00012890456803403827_016_00029950108064592316_115_00001224744871391589_0,
  116_00011523735778935282_116_00018909722861951244_117_00011588947015662704_117_00042001677176876356_016_00013675990862527267_116_00003338886116348349_015_00000816496580927726_0,
  116_00011523735778935282_116_00018909722861951244_116_00008187198011492087_016_00003022630853896422_016_00013990204486176645_116_00003338886116348349_015_00000816496580927726_0,
  116_00011023775442658785_116_00018909722861951244_116_00004617266171529768_117_00003881351382404913_015_00001430441810982602_116_00003338886116348349_115_00001224744871391589_0,
  116_00011523735778935282_115_00001958373171800653_016_00009829801743317745_116_00009817899940030786_116_00016959837443286896_116_00003338886116348349_015_00000816496580927726_0,
  116_00011523735778935282_116_00018909722861951244_116_00007462055606499741_016_00003724847381689319_116_00016645623819637518_116_00003338886116348349_115_00001224744871391589_0,
  116_00011523735778935282_116_00018909722861951244_016_00007208133048345416_117_00021938347811365091_116_00016174303384163455_116_00003338886116348349_015_00000816496580927726_0,
  116_00011523735778935282_115_00001958373171800653_015_00001763902764323532_116_00017542281745752621_116_00015860089760514078_016_00029950108064592316_115_00001224744871391589_0,
  116_00012023696115211493_115_00001958373171800653_116_00002386058771553318_117_00007894017255507152_115_00001507455570139064_116_00003338886116348349_015_00000816496580927726_0,
  116_00012023696115211493_115_00001958373171800653_117_00037805633965385993_015_00000492864714361999_116_00014760342077741262_116_00003338886116348349_115_00001224744871391589_0,
  116_00011523735778935282_116_00018909722861951244_116_00005286628391522703_019_00013131449069732513_114_00000142890216422672_116_00003338886116348349_015_00000816496580927726_0,
  116_00011523735778935282_116_00018235714005895574_117_00013820154415639155_117_00013913016065160544_116_00013974808018617824_016_00029950108064592316_115_00001224744871391589_0,
  116_00011023775442658785_116_00018235714005895574_116_00007071594311503863_015_00001074701265961826_116_00013189273959494383_116_00003338886116348349_015_00000816496580927726_0,
  116_00011523735778935282_116_00018909722861951244_116_00006123331166513871_016_00004126113968999543_116_00012875060335845006_016_00029950108064592316_115_00001224744871391589_0,
  116_00011523735778935282_116_00018909722861951244_016_00007208133048345416_116_00007309983769341876_116_00012089526276721567_116_00003338886116348349_015_00000816496580927726_0,
  116_00011523735778935282_116_00018909722861951244_116_00009302801711480313_016_00012853662242996937_115_00001177531265307219_116_00003338886116348349_115_00001224744871391589_0,
  116_00011523735778935282_116_00018235714005895574_116_00009693263006476192_016_00009242262957204916_116_00011303992217598127_116_00003338886116348349_115_00001224744871391589_0,
  116_00012023696115211493_115_00001958373171800653_117_00007126532215709803_117_00008897183723782728_116_00010832671782124061_116_00003338886116348349_115_00001224744871391589_0,
  116_00012023696115211493_116_00018909722861951244_117_00029438606215474306_017_00006150313300350718_116_00010361351346649998_116_00003338886116348349_015_00000816496580927726_0,
  116_00012023696115211493_116_00018909722861951244_117_00038363435815380104_016_00002621364266586198_116_00010047137723000623_116_00003338886116348349_115_00001224744871391589_0,
  116_00011523735778935282_116_00018235714005895574_116_00016163764466407897_016_00022885326925752567_116_00009575817287526558_016_00029950108064592316_115_00001224744871391589_0,
  116_00011023775442658785_116_00017561705149840288_016_00011893668588295963_116_00013930882459960594_116_00008790283228403118_116_00003338886116348349_115_00001224744871391589_0,
  116_00011523735778935282_116_00017561705149840288_016_00005813628423360135_117_00034979511898947385_116_00008318962792929054_116_00003338886116348349_015_00000816496580927726_0,
  116_00011023775442658785_116_00017561705149840288_116_00002832300251548608_117_00038992177772049624_116_00008004749169279678_116_00003338886116348349_115_00001224744871391589_0,
  116_00011023775442658785_116_00017561705149840288_116_00010251064856470304_016_00005831496965067996_116_00007533428733805614_116_00003338886116348349_015_00000816496580927726_0,
  116_00011023775442658785_116_00016213687437728947_016_00003805541763381331_116_00009717583293203229_116_00007219215110156237_116_00003338886116348349_015_00000816496580927726_0,
  116_00010523815106382575_116_00016213687437728947_016_00003917102133380153_116_00009717583293203229_116_00006905001486506862_116_00003338886116348349_115_00001224744871391589_0,
  116_00010523815106382575_116_00015539678581673662_117_00012146748865656816_016_00004427063909482209_116_00006433681051032798_116_00003338886116348349_015_00000816496580927726_0,
  116_00010523815106382575_116_00015539678581673662_117_00012146748865656816_117_00004884517850680491_116_00006119467427383422_116_00003338886116348349_115_00001224744871391589_0,
  116_00010523815106382575_116_00015539678581673662_018_00040295047841724455_117_00023944680747916175_116_00005648146991909357_116_00003338886116348349_015_00000816496580927726_0,
  116_00010523815106382575_116_00015539678581673662_016_00001574334363404881_115_00000530365083279075_116_00005333933368259982_116_00003338886116348349_015_00000816496580927726_0,
  116_00009523894433829583_116_00014191660869562706_016_00006873451938348949_115_00001112201634878902_116_00005019719744610606_116_00003338886116348349_115_00001224744871391589_0,
  116_00009523894433829583_116_00014191660869562706_117_00020513776615568505_017_00018188310919657433_117_00045483993091365416_116_00003338886116348349_015_00000816496580927726_0,
  116_00008523973761276875_116_00013517652013507035_116_00009916383746473837_016_00016966644762926748_117_00042341856854871657_116_00003338886116348349_015_00000816496580927726_0,
  116_00008523973761276875_116_00012843643157451365_016_00005088486018367789_116_00007309983769341876_115_00000391997206183779_116_00003338886116348349_115_00001224744871391589_0,
  116_00008523973761276875_116_00013517652013507035_117_00029438606215474306_017_00023204143261035248_117_00034486516263637257_116_00003338886116348349_015_00000816496580927726_0,
  116_00008523973761276875_116_00012843643157451365_016_00016802324868244152_116_00018545448214028186_115_00000313443800271435_116_00003338886116348349_015_00000816496580927726_0,
  116_00008523973761276875_116_00012843643157451365_115_00001186869022145323_016_00018471394465340092_117_00028202243790649734_116_00003338886116348349_015_00000816496580927726_0,
  116_00008024013425000663_116_00012843643157451365_116_00009581702636477369_016_00017869494584374754_117_00025060107554155975_116_00003338886116348349_015_00000816496580927726_0,
  116_00008024013425000663_116_00012843643157451365_015_00000330352009838663_116_00007309983769341876_117_00021917971317662216_116_00003338886116348349_015_00000816496580927726_0,
  116_00008523973761276875_116_00013517652013507035_116_00009804823376475014_015_00001014511277865292_117_00018775835081168454_116_00003338886116348349_015_00000816496580927726_0,
  116_00008523973761276875_116_00013517652013507035_116_00016554225761403776_015_00002208279375113212_117_00015633698844674693_116_00003338886116348349_015_00000816496580927726_0,
  116_00009023934097553371_116_00014865669725617991_017_00015185541784054696_116_00006206500654238761_117_00012491562608180934_116_00003338886116348349_115_00001224744871391589_0,
  116_00009523894433829583_116_00015539678581673662_116_00006402232091510928_016_00007737513254791571_117_00007778358253440293_116_00003338886116348349_115_00001224744871391589_0,
  116_00009023934097553371_116_00015539678581673662_016_00003861321948380742_116_00006206500654238761_117_00003065153898699653_116_00003338886116348349_115_00001224744871391589_0,
  116_00009523894433829583_116_00015539678581673662_016_00009271999893323634_116_00010921383055133904_018_00016480504560409875_116_00003338886116348349_015_00000816496580927726_0,
  116_00010023854770106078_116_00016213687437728947_017_00005145108484160671_016_00005831496965067996_017_00004790186692534748_116_00003338886116348349_015_00000816496580927726_0,
  116_00010023854770106078_116_00016213687437728947_017_00023552569533966383_016_00003423897441206646_017_00007932322929028508_116_00003338886116348349_115_00001224744871391589_0,
  116_00010023854770106078_116_00016213687437728947_117_00037247832115391877_016_00006734346786516008_017_00012645527283769148_116_00003338886116348349_115_00001224744871391589_0,
  116_00010023854770106078_116_00016213687437728947_016_00014124875988272412_115_00001403119910678815_016_00001735873163850979_116_00003338886116348349_115_00001224744871391589_0,
  116_00010023854770106078_116_00016213687437728947_016_00008044835823336586_116_00007209667122514325_016_00002207193599325043_116_00003338886116348349_015_00000816496580927726_0,
  116_00010523815106382575_116_00016213687437728947_116_00001995597476557439_017_00007153479768626296_016_00002521407222974419_116_00003338886116348349_015_00000816496580927726_0,
  116_00010523815106382575_116_00016887696293784618_016_00005757848238360724_116_00007610933709824549_016_00002835620846623795_116_00003338886116348349_115_00001224744871391589_0,
  116_00011023775442658785_116_00017561705149840288_015_00002026069633820765_116_00015736582102856609_016_00003306941282097859_116_00003338886116348349_115_00001224744871391589_0,
  116_00011523735778935282_116_00017561705149840288_116_00005955990611515638_018_00021376474272484798_016_00003778261717571923_016_00029950108064592316_115_00001224744871391589_0,
  116_00011023775442658785_116_00017561705149840288_116_00001493575811562738_017_00008156646236901802_016_00004563795776695363_116_00003338886116348349_015_00000816496580927726_0,
  116_00011523735778935282_116_00017561705149840288_016_00012563030808288898_116_00011021699701961463_017_00048780094003447394_116_00003338886116348349_015_00000816496580927726_0,
  116_00011023775442658785_116_00017561705149840288_115_00000562130950151917_016_00003624530734861761_016_00005192223023994115_116_00003338886116348349_115_00001224744871391589_0,
  116_00011023775442658785_116_00016887696293784618_014_00000051442662033672_116_00010118849880513456_016_00005663543459468179_116_00003338886116348349_015_00000816496580927726_0,
  116_00010523815106382575_116_00016887696293784618_014_00000190335322682206_116_00016739748571132171_016_00005977757083117555_016_00029950108064592316_115_00001224744871391589_0,
  116_00010523815106382575_116_00016213687437728947_116_00010864646891463827_016_00014358411945410283_016_00006763291142240996_116_00003338886116348349_015_00000816496580927726_0,
  116_00010523815106382575_116_00016887696293784618_017_00019647956584007595_117_00042001677176876356_016_00007077504765890371_116_00003338886116348349_015_00000816496580927726_0,
  116_00011023775442658785_116_00017561705149840288_116_00006736913201507395_017_00012169312110004112_016_00007391718389539748_116_00003338886116348349_015_00000816496580927726_0,
  116_00011023775442658785_116_00016887696293784618_116_00009302801711480313_016_00014157778651755175_016_00007705932013189124_116_00003338886116348349_015_00000816496580927726_0,
  116_00011023775442658785_116_00016887696293784618_116_00008410318751489733_019_00013131449069732513_016_00008020145636838499_116_00003338886116348349_015_00000816496580927726_0]

/-- lr/data.csv 1902-2001 -/
def dataCsv19 : List ℕ := [
  116_00010523815106382575_116_00016213687437728947_117_00025533993265515514_115_00000399953442403252_016_00008334359260487876_016_00029950108064592316_115_00001224744871391589_0,
  116_00010523815106382575_116_00016213687437728947_117_00018840371065586167_018_00011344809589729025_016_00009119893319611315_116_00003338886116348349_115_00001224744871391589_0,
  116_00010023854770106078_116_00016213687437728947_015_00000865841785833011_116_00010921383055133904_016_00009591213755085379_116_00003338886116348349_015_00000816496580927726_0,
  116_00010523815106382575_116_00016213687437728947_015_00002394218854816879_116_00019648931329131307_016_00009905427378734756_116_00003338886116348349_015_00000816496580927726_0,
  116_00010023854770106078_116_00016213687437728947_017_00016858947334037033_117_00044008010113427437_016_00010219641002384132_116_00003338886116348349_115_00001224744871391589_0,
  116_00010523815106382575_116_00016213687437728947_016_00008267956563334231_116_00010921383055133904_016_00010690961437858195_116_00003338886116348349_015_00000816496580927726_0,
  116_00010523815106382575_116_00016213687437728947_115_00000606755098151446_016_00012452395655686714_016_00011005175061507573_116_00003338886116348349_015_00000816496580927726_0,
  116_00010523815106382575_116_00016213687437728947_117_00019398172915580278_017_00024207309729310825_016_00011319388685156948_116_00003338886116348349_015_00000816496580927726_0,
  116_00010523815106382575_116_00016213687437728947_016_00024444210213163493_116_00019849564622786418_016_00011633602308806323_116_00003338886116348349_015_00000816496580927726_0,
  116_00010023854770106078_116_00015539678581673662_116_00005788650056517404_016_00005630863671412888_014_00000119478159324557_116_00003338886116348349_015_00000816496580927726_0,
  116_00010023854770106078_116_00015539678581673662_017_00004587306634166558_117_00031970012494120725_016_00012262029556105076_016_00029950108064592316_115_00001224744871391589_0,
  116_00009523894433829583_116_00014865669725617991_116_00012426492071447344_016_00017267594703409421_016_00013047563615228517_116_00003338886116348349_115_00001224744871391589_0,
  116_00010023854770106078_116_00015539678581673662_016_00004586464353373088_116_00005103017539135641_015_00001351888405070258_116_00003338886116348349_115_00001224744871391589_0,
  116_00010023854770106078_116_00014865669725617991_116_00002609179511550963_018_00021376474272484798_016_00013990204486176645_116_00003338886116348349_115_00001224744871391589_0,
  116_00010023854770106078_116_00015539678581673662_016_00005813628423360135_116_00007711250356652106_016_00014461524921650708_116_00003338886116348349_015_00000816496580927726_0,
  116_00010023854770106078_116_00015539678581673662_116_00002609179511550963_117_00012909849596884967_016_00014775738545300083_116_00003338886116348349_015_00000816496580927726_0,
  116_00010023854770106078_116_00015539678581673662_116_00008466098936489144_016_00010847329306445812_015_00001508995216894946_116_00003338886116348349_015_00000816496580927726_0,
  116_00009523894433829583_116_00014191660869562706_116_00004226804876533889_016_00007336246667481341_016_00015404165792598836_116_00003338886116348349_115_00001224744871391589_0,
  116_00009523894433829583_116_00014191660869562706_116_00002386058771553318_019_00013131449069732513_116_00016959837443286896_116_00003338886116348349_115_00001224744871391589_0,
  116_00009023934097553371_116_00013517652013507035_016_00006650331198351305_116_00010018533233685898_115_00001648851700781283_116_00003338886116348349_015_00000816496580927726_0,
  116_00009523894433829583_116_00014191660869562706_016_00034707764253055164_115_00002255811408713044_116_00016174303384163455_116_00003338886116348349_015_00000816496580927726_0,
  116_00009523894433829583_116_00014191660869562706_016_00007040792493347183_116_00008012200297134773_116_00015860089760514078_116_00003338886116348349_015_00000816496580927726_0,
  116_00010023854770106078_116_00014865669725617991_016_00009885581928317156_116_00013429299225822813_116_00015545876136864702_116_00003338886116348349_015_00000816496580927726_0,
  116_00010023854770106078_116_00015539678581673662_117_00005453126665727467_116_00005905550713756088_116_00015231662513215327_116_00003338886116348349_015_00000816496580927726_0,
  116_00010523815106382575_116_00015539678581673662_116_00010362625226469127_015_00001074701265961826_115_00001491744888956595_116_00003338886116348349_015_00000816496580927726_0,
  116_00010523815106382575_116_00015539678581673662_118_00009907118657745668_117_00022941514279640599_116_00014603235265916574_116_00003338886116348349_015_00000816496580927726_0,
  116_00010023854770106078_116_00015539678581673662_017_00037497615783819194_116_00009216000059065448_114_00000142890216422672_116_00003338886116348349_015_00000816496580927726_0,
  116_00010023854770106078_116_00014865669725617991_116_00012538052441446166_016_00007837829901619122_116_00013974808018617824_016_00029950108064592316_115_00001224744871391589_0,
  116_00010023854770106078_116_00014865669725617991_016_00004698024723371911_116_00010118849880513456_116_00013189273959494383_116_00003338886116348349_015_00000816496580927726_0,
  116_00010023854770106078_116_00014865669725617991_117_00031112011765456643_016_00010947645953273368_116_00012875060335845006_116_00003338886116348349_115_00001224744871391589_0,
  116_00009523894433829583_116_00014191660869562706_017_00016858947334037033_117_00029963679557569567_116_00012403739900370943_116_00003338886116348349_115_00001224744871391589_0,
  116_00009023934097553371_116_00013517652013507035_016_00023997968733168205_116_00018344814920373074_116_00011932419464896877_116_00003338886116348349_115_00001224744871391589_0,
  116_00009523894433829583_116_00013517652013507035_016_00008212176378334819_116_00010720749761478792_116_00011461099029422814_116_00003338886116348349_115_00001224744871391589_0,
  116_00009523894433829583_116_00013517652013507035_016_00005534727498363079_117_00049023842454805255_116_00010989778593948751_116_00003338886116348349_015_00000816496580927726_0,
  116_00009523894433829583_116_00014191660869562706_016_00008881538598327754_116_00006708083888376544_116_00010675564970299374_116_00003338886116348349_015_00000816496580927726_0,
  116_00009523894433829583_116_00014191660869562706_116_00009023900786483257_016_00015160945120030738_116_00010361351346649998_116_00003338886116348349_115_00001224744871391589_0,
  116_00009523894433829583_116_00013517652013507035_013_00000032922798333074_116_00021655264265682432_116_00009890030911175934_116_00003338886116348349_115_00001224744871391589_0,
  116_00009023934097553371_116_00013517652013507035_116_00007127374496503274_017_00024207309729310825_115_00000941871047570187_116_00003338886116348349_015_00000816496580927726_0,
  116_00009523894433829583_116_00014191660869562706_117_00012146748865656816_017_00008156646236901802_116_00009104496852052494_116_00003338886116348349_015_00000816496580927726_0,
  116_00009523894433829583_116_00014191660869562706_116_00013151634476439689_016_00013957145358100058_116_00008790283228403118_116_00003338886116348349_115_00001224744871391589_0,
  116_00009523894433829583_116_00014191660869562706_017_00021879163983984046_117_00044008010113427437_116_00008318962792929054_116_00003338886116348349_015_00000816496580927726_0,
  116_00009523894433829583_116_00014191660869562706_116_00006346451906511517_016_00018270761171684984_116_00008004749169279678_116_00003338886116348349_015_00000816496580927726_0,
  116_00009523894433829583_116_00013517652013507035_116_00004617266171529768_017_00024207309729310825_116_00007690535545630302_116_00003338886116348349_015_00000816496580927726_0,
  116_00009523894433829583_116_00013517652013507035_016_00009216219708324221_116_00009115683412237894_116_00007376321921980926_116_00003338886116348349_015_00000816496580927726_0,
  116_00009523894433829583_116_00012843643157451365_013_00000014069095803273_115_00001272708269802992_115_00000706210829833155_116_00003338886116348349_015_00000816496580927726_0,
  116_00009523894433829583_116_00012843643157451365_016_00004307563428376032_116_00007209667122514325_116_00006747894674682174_116_00003338886116348349_015_00000816496580927726_0,
  116_00009023934097553371_116_00012843643157451365_014_00000046422445383725_116_00005103017539135641_116_00006433681051032798_116_00003338886116348349_015_00000816496580927726_0,
  116_00009023934097553371_116_00012843643157451365_117_00042825850615333005_016_00009944479484997806_116_00006119467427383422_116_00003338886116348349_015_00000816496580927726_0,
  116_00009523894433829583_116_00012843643157451365_116_00007183154681502685_016_00005831496965067996_116_00005805253803734046_116_00003338886116348349_015_00000816496580927726_0,
  116_00009523894433829583_116_00013517652013507035_018_00023560992341901083_016_00001919147738793301_115_00000549104018008467_116_00003338886116348349_115_00001224744871391589_0,
  116_00010023854770106078_116_00014191660869562706_116_00003334321916543309_016_00007637196607964014_116_00005019719744610606_116_00003338886116348349_115_00001224744871391589_0,
  116_00010023854770106078_116_00014865669725617991_015_00001674654468324474_116_00017341648452097511_117_00045483993091365416_116_00003338886116348349_015_00000816496580927726_0,
  116_00010023854770106078_116_00014865669725617991_116_00015215501321417906_016_00020578044048718778_117_00042341856854871657_116_00003338886116348349_015_00000816496580927726_0,
  116_00010523815106382575_116_00015539678581673662_017_00030246191733895733_116_00005103017539135641_115_00000391997206183779_116_00003338886116348349_015_00000816496580927726_0,
  116_00010523815106382575_116_00014865669725617991_117_00044499256165315343_016_00006934980080171117_117_00036057584381884134_116_00003338886116348349_015_00000816496580927726_0,
  116_00010523815106382575_116_00015539678581673662_116_00012872733551442632_016_00015261261766858294_117_00032915448145390375_116_00003338886116348349_015_00000816496580927726_0,
  116_00010523815106382575_116_00015539678581673662_116_00009749043191475603_016_00006834663433343559_117_00029773311908896616_116_00003338886116348349_115_00001224744871391589_0,
  116_00010523815106382575_116_00015539678581673662_017_00044191237983748544_117_00040998510708600777_117_00025060107554155975_016_00029950108064592316_115_00001224744871391589_0,
  116_00010523815106382575_116_00015539678581673662_116_00004171024691534478_016_00003223264147551537_117_00017204766962921575_016_00029950108064592316_115_00001224744871391589_0,
  116_00011023775442658785_116_00016213687437728947_116_00010418405411468539_016_00009442896250860024_117_00009349426371687174_116_00003338886116348349_115_00001224744871391589_0,
  116_00011023775442658785_116_00016213687437728947_116_00005175068021523881_016_00011449229187411152_118_00046362220169465326_116_00003338886116348349_015_00000816496580927726_0,
  116_00011023775442658785_116_00016887696293784618_116_00005063507651525058_016_00011248595893756042_118_00014940857804527726_116_00003338886116348349_015_00000816496580927726_0,
  116_00011023775442658785_116_00016887696293784618_116_00008242978196491499_016_00008640363076239577_018_00016480504560409875_116_00003338886116348349_015_00000816496580927726_0,
  116_00011523735778935282_116_00016887696293784618_116_00008912340416484434_016_00003323580794379088_017_00004790186692534748_116_00003338886116348349_015_00000816496580927726_0,
  116_00011023775442658785_116_00016887696293784618_116_00007462055606499741_016_00006934980080171117_017_00007932322929028508_116_00003338886116348349_115_00001224744871391589_0,
  116_00011023775442658785_116_00016887696293784618_017_00023552569533966383_116_00006908717182031652_017_00012645527283769148_116_00003338886116348349_015_00000816496580927726_0,
  116_00010523815106382575_116_00016213687437728947_117_00013262352565645041_017_00005147146832075141_016_00001578766352026291_116_00003338886116348349_015_00000816496580927726_0,
  116_00010523815106382575_116_00016213687437728947_017_00028014984333919285_117_00021938347811365091_017_00018929799756756668_116_00003338886116348349_015_00000816496580927726_0,
  116_00010023854770106078_116_00016213687437728947_116_00014378798546426736_016_00010847329306445812_016_00002207193599325043_116_00003338886116348349_015_00000816496580927726_0,
  116_00011023775442658785_116_00016887696293784618_014_00000051442662033672_116_00008714416824927665_016_00002521407222974419_016_00029950108064592316_115_00001224744871391589_0,
  116_00010523815106382575_116_00016213687437728947_116_00018785433161380225_015_00002709862609250994_016_00003306941282097859_116_00003338886116348349_115_00001224744871391589_0,
  116_00010523815106382575_116_00016213687437728947_116_00013430535401436745_016_00012753345596169388_016_00003778261717571923_116_00003338886116348349_015_00000816496580927726_0,
  116_00010523815106382575_116_00016213687437728947_016_00004084442688378387_116_00009316316705893005_016_00004092475341221299_116_00003338886116348349_015_00000816496580927726_0,
  116_00010523815106382575_116_00016213687437728947_016_00011614767663298906_116_00014733415634581044_017_00044066889648706753_116_00003338886116348349_015_00000816496580927726_0,
  116_00010023854770106078_116_00016213687437728947_117_00049519472815262355_016_00008740679723067134_016_00004720902588520051_116_00003338886116348349_015_00000816496580927726_0,
  116_00010023854770106078_116_00015539678581673662_115_00000651379246150975_016_00005630863671412888_016_00005035116212169427_116_00003338886116348349_015_00000816496580927726_0,
  116_00009523894433829583_116_00015539678581673662_116_00006681133016507984_016_00007436563314308898_016_00005349329835818804_116_00003338886116348349_115_00001224744871391589_0,
  116_00009523894433829583_116_00015539678581673662_016_00005255826573366024_116_00009316316705893005_016_00005820650271292868_116_00003338886116348349_115_00001224744871391589_0,
  116_00010023854770106078_116_00015539678581673662_116_00005398188761521525_016_00003624530734861761_016_00006291970706766932_116_00003338886116348349_015_00000816496580927726_0,
  116_00010023854770106078_116_00016213687437728947_116_00006625352831508573_016_00005831496965067996_016_00006606184330416307_016_00029950108064592316_115_00001224744871391589_0,
  116_00010023854770106078_116_00016213687437728947_115_00001326319484643851_015_00001857171111216765_016_00007391718389539748_116_00003338886116348349_115_00001224744871391589_0,
  116_00010023854770106078_116_00016213687437728947_116_00008577659306487967_016_00005028963790447548_016_00007863038825013812_116_00003338886116348349_015_00000816496580927726_0,
  116_00010023854770106078_116_00015539678581673662_116_00002888080436548019_017_00013172478578279617_016_00008177252448663187_116_00003338886116348349_115_00001224744871391589_0,
  116_00010023854770106078_116_00016213687437728947_117_00044499256165315343_016_00004427063909482209_016_00008648572884137251_116_00003338886116348349_115_00001224744871391589_0,
  116_00010023854770106078_116_00016887696293784618_116_00008466098936489144_016_00005530547024585329_016_00009119893319611315_116_00003338886116348349_115_00001224744871391589_0,
  116_00009523894433829583_116_00015539678581673662_118_00009907118657745668_017_00008156646236901802_016_00009591213755085379_116_00003338886116348349_015_00000816496580927726_0,
  116_00009523894433829583_116_00016213687437728947_117_00022744984015544953_016_00002922314207068864_016_00009905427378734756_116_00003338886116348349_015_00000816496580927726_0,
  116_00009023934097553371_116_00014865669725617991_016_00003359300283386041_116_00008814733471755224_016_00010219641002384132_116_00003338886116348349_115_00001224744871391589_0,
  116_00008523973761276875_116_00014191660869562706_116_00006625352831508573_117_00007894017255507152_016_00010690961437858195_016_00029950108064592316_115_00001224744871391589_0,
  116_00009023934097553371_116_00014191660869562706_016_00013734414693276533_116_00016639431924304617_016_00011476495496981636_116_00003338886116348349_015_00000816496580927726_0,
  116_00009023934097553371_116_00014865669725617991_116_00006458012276510339_016_00008138779842101795_015_00001179070912063101_116_00003338886116348349_015_00000816496580927726_0,
  116_00009023934097553371_116_00014865669725617991_017_00024668173233954607_117_00033976345430671806_016_00012104922744280389_116_00003338886116348349_115_00001224744871391589_0,
  116_00009023934097553371_116_00014865669725617991_116_00009135461156482079_015_00000663403013968845_016_00012576243179754452_116_00003338886116348349_015_00000816496580927726_0,
  116_00008523973761276875_116_00013517652013507035_116_00004226804876533889_015_00000252104761975864_016_00012890456803403827_116_00003338886116348349_115_00001224744871391589_0,
  116_00009023934097553371_116_00014191660869562706_116_00007573615976498564_016_00005129280437275106_016_00013361777238877892_116_00003338886116348349_115_00001224744871391589_0,
  116_00008523973761276875_116_00013517652013507035_116_00004896167096526824_016_00007135613373826232_016_00013833097674351955_116_00003338886116348349_015_00000816496580927726_0,
  116_00008024013425000663_116_00013517652013507035_116_00006848473571506217_117_00017925681938262783_016_00014147311298001333_116_00003338886116348349_115_00001224744871391589_1,
  116_00008523973761276875_116_00012843643157451365_016_00007431253788343062_017_00013172478578279617_116_00016959837443286896_116_00003338886116348349_015_00000816496580927726_0,
  116_00008523973761276875_116_00013517652013507035_016_00005478947313363668_116_00009216000059065448_116_00016645623819637518_016_00029950108064592316_115_00001224744871391589_0,
  116_00008024013425000663_116_00013517652013507035_019_00068269368420777075_117_00021938347811365091_116_00015860089760514078_116_00003338886116348349_015_00000816496580927726_0]

/-- lr/data.csv 2002-2101 -/
def dataCsv20 : List ℕ := [
  116_00008024013425000663_116_00012843643157451365_116_00014490358916425559_015_00001315461218347961_116_00015545876136864702_116_00003338886116348349_015_00000816496580927726_0,
  116_00008024013425000663_115_00001216963430139608_016_00003638201208383097_116_00005103017539135641_116_00015231662513215327_116_00003338886116348349_015_00000816496580927726_0,
  116_00007524053088724167_115_00001216963430139608_016_00006427210458353659_116_00012927715991685031_115_00001491744888956595_116_00003338886116348349_015_00000816496580927726_0,
  116_00007524053088724167_115_00001216963430139608_017_00014069938084066472_117_00024947847216191754_116_00014603235265916574_116_00003338886116348349_115_00001224744871391589_0,
  116_00007524053088724167_115_00001216963430139608_116_00004896167096526824_016_00007536879961136456_116_00014131914830442511_116_00003338886116348349_015_00000816496580927726_0,
  116_00007524053088724167_115_00001149562544534041_117_00019398172915580278_116_00001993201487481394_116_00013817701206793134_116_00003338886116348349_015_00000816496580927726_0,
  116_00007524053088724167_115_00001149562544534041_116_00008800780046485611_016_00010546379365963146_116_00013503487583143758_116_00003338886116348349_115_00001224744871391589_0,
  116_00007024092752447672_116_00010821616589285121_017_00012954334384078245_116_00005604600773273423_116_00013032167147669695_116_00003338886116348349_015_00000816496580927726_0,
  116_00007524053088724167_115_00001149562544534041_016_00015184699503261225_116_00015335315515546384_116_00012717953524020318_116_00003338886116348349_015_00000816496580927726_0,
  116_00007024092752447672_115_00001149562544534041_016_00009941362113316569_116_00011322649642444131_116_00012403739900370943_116_00003338886116348349_115_00001224744871391589_0,
  116_00007024092752447672_115_00001149562544534041_115_00001454613910142497_016_00020578044048718778_116_00011932419464896877_116_00003338886116348349_015_00000816496580927726_0,
  115_00000652413241617146_116_00010147607733229451_016_00004307563428376032_116_00009817899940030786_116_00011618205841247502_116_00003338886116348349_015_00000816496580927726_0,
  116_00007024092752447672_116_00010821616589285121_116_00007908297086495032_016_00006433396846033335_116_00011303992217598127_116_00003338886116348349_015_00000816496580927726_0,
  116_00007024092752447672_116_00010821616589285121_117_00029996408065468416_016_00002922314207068864_116_00010989778593948751_116_00003338886116348349_015_00000816496580927726_0,
  116_00007024092752447672_116_00010821616589285121_115_00001276117318144381_015_00001977551087409833_116_00010675564970299374_116_00003338886116348349_015_00000816496580927726_0,
  116_00007524053088724167_115_00001216963430139608_115_00001326319484643851_015_00002639640956471704_116_00010361351346649998_116_00003338886116348349_015_00000816496580927726_1,
  116_00007524053088724167_115_00001149562544534041_117_00045057058015309454_016_00004025797322171985_116_00010047137723000623_116_00003338886116348349_015_00000816496580927726_0,
  115_00000652413241617146_116_00010147607733229451_117_00031112011765456643_015_00000252104761975864_116_00009732924099351247_116_00003338886116348349_015_00000816496580927726_0,
  115_00000652413241617146_116_00010147607733229451_116_00009135461156482079_016_00006433396846033335_115_00000941871047570187_116_00003338886116348349_015_00000816496580927726_0,
  115_00000652413241617146_116_00010147607733229451_016_00006761891568350127_116_00013028032638512588_116_00009104496852052494_116_00003338886116348349_115_00001224744871391589_0,
  115_00000652413241617146_116_00010821616589285121_017_00011838730684090021_116_00006708083888376544_115_00000863317641657843_016_00029950108064592316_115_00001224744871391589_0,
  115_00000652413241617146_116_00010147607733229451_116_00003278541731543898_016_00002220097679275974_115_00000784764235745499_116_00003338886116348349_015_00000816496580927726_0,
  115_00000652413241617146_116_00010821616589285121_116_00009247021526480902_016_00006934980080171117_116_00007533428733805614_116_00003338886116348349_015_00000816496580927726_0,
  115_00000652413241617146_116_00010147607733229451_116_00005286628391522703_016_00014258095298582731_116_00007219215110156237_116_00003338886116348349_015_00000816496580927726_0,
  115_00000652413241617146_116_00009473598877173782_016_00010220263038313624_116_00015335315515546384_116_00006905001486506862_116_00003338886116348349_115_00001224744871391589_0,
  115_00000652413241617146_116_00010147607733229451_117_00038921237665374214_118_00008718519775782523_116_00006433681051032798_116_00003338886116348349_015_00000816496580927726_0,
  115_00000652413241617146_116_00010147607733229451_116_00009972163931473248_016_00012953978889824496_116_00006119467427383422_116_00003338886116348349_115_00001224744871391589_0,
  115_00000652413241617146_116_00010821616589285121_015_00001178210821829714_116_00014231832400443263_116_00005648146991909357_116_00003338886116348349_015_00000816496580927726_0,
  115_00000652413241617146_115_00001149562544534041_115_00001058574596646677_015_00000663403013968845_116_00005333933368259982_116_00003338886116348349_115_00001224744871391589_0,
  115_00000652413241617146_116_00010147607733229451_016_00007208133048345416_117_00048020675986529676_117_00048626129327859174_116_00003338886116348349_015_00000816496580927726_0,
  116_00005524211743618752_116_00009473598877173782_116_00007740956531496798_016_00009543212897687582_117_00045483993091365416_116_00003338886116348349_015_00000816496580927726_0,
  116_00006024172079894964_116_00009473598877173782_116_00011589789296456174_016_00022885326925752567_117_00042341856854871657_116_00003338886116348349_015_00000816496580927726_0,
  116_00006024172079894964_116_00010147607733229451_116_00005286628391522703_016_00002220097679275974_115_00000391997206183779_116_00003338886116348349_015_00000816496580927726_0,
  116_00006024172079894964_116_00010147607733229451_116_00010027944116472658_016_00007637196607964014_117_00036057584381884134_016_00029950108064592316_115_00001224744871391589_0,
  116_00006024172079894964_116_00010147607733229451_116_00006346451906511517_016_00007436563314308898_117_00028202243790649734_116_00003338886116348349_115_00001224744871391589_0,
  116_00005524211743618752_116_00009473598877173782_117_00038921237665374214_116_00005805234066928531_117_00023489039435909095_116_00003338886116348349_115_00001224744871391589_0,
  116_00005024251407342256_116_00008799590021118496_016_00019702894488213536_116_00017241331805269953_117_00018775835081168454_116_00003338886116348349_015_00000816496580927726_0,
  116_00005024251407342256_116_00008799590021118496_016_00022380343368185276_115_00002015051456326909_117_00015633698844674693_016_00029950108064592316_115_00001224744871391589_0,
  116_00005024251407342256_116_00008125581165062826_116_00007462055606499741_016_00015261261766858294_117_00007778358253440293_116_00003338886116348349_015_00000816496580927726_0,
  116_00005024251407342256_116_00007451572309007539_116_00005007727466525647_117_00003881351382404913_118_00046362220169465326_116_00003338886116348349_115_00001224744871391589_0,
  115_00000452429107106576_116_00007451572309007539_016_00008212176378334819_116_00010419799820996123_019_00007698233779410749_116_00003338886116348349_015_00000816496580927726_0,
  115_00000452429107106576_116_00007451572309007539_016_00007877495268338351_116_00012827399344857475_017_00003219118574287868_116_00003338886116348349_015_00000816496580927726_0,
  115_00000452429107106576_116_00007451572309007539_116_00007908297086495032_016_00012452395655686714_017_00006361254810781627_116_00003338886116348349_115_00001224744871391589_0,
  117_00040243307347895485_115_00000677756345295187_016_00003247739913387218_116_00009717583293203229_017_00011074459165522269_116_00003338886116348349_115_00001224744871391589_0,
  117_00035243703985130526_114_00000061035545968962_117_00038363435815380104_017_00011166145641728534_016_00001578766352026291_116_00003338886116348349_015_00000816496580927726_0,
  117_00035243703985130526_114_00000061035545968962_015_00000916043952332481_116_00008714416824927665_017_00018929799756756668_116_00003338886116348349_115_00001224744871391589_0,
  117_00035243703985130526_114_00000061035545968962_116_00008410318751489733_016_00005530547024585329_016_00002364300411149731_116_00003338886116348349_015_00000816496580927726_0,
  117_00035243703985130526_116_00005429545740840913_015_00001317661284328242_116_00015836898749684165_016_00002678514034799107_116_00003338886116348349_015_00000816496580927726_0,
  117_00035243703985130526_116_00005429545740840913_116_00004115244506535067_017_00015178811514830773_016_00002992727658448483_116_00003338886116348349_015_00000816496580927726_0,
  117_00035243703985130526_116_00005429545740840913_016_00002634157878393695_117_00020935181343089515_016_00003306941282097859_116_00003338886116348349_115_00001224744871391589_0,
  116_00002524449725960345_117_00047555368847852436_016_00007598594343341296_115_00001082106640830635_016_00003778261717571923_116_00003338886116348349_115_00001224744871391589_0,
  116_00003024410062236841_116_00005429545740840913_117_00038363435815380104_016_00004427063909482209_016_00004249582153045987_116_00003338886116348349_115_00001224744871391589_0,
  116_00002524449725960345_117_00047555368847852436_116_00003445882286542132_017_00004143980363799563_016_00004720902588520051_116_00003338886116348349_015_00000816496580927726_0,
  116_00002524449725960345_117_00047555368847852436_114_00000087449998614862_015_00002107962728285656_016_00005035116212169427_116_00003338886116348349_015_00000816496580927726_0,
  117_00020244893896838492_116_00004081528028729957_017_00036939813933825083_115_00001021916652734101_016_00005349329835818804_116_00003338886116348349_115_00001224744871391589_0,
  117_00020244893896838492_116_00004081528028729957_016_00005813628423360135_116_00007109350475686768_016_00005820650271292868_116_00003338886116348349_015_00000816496580927726_0,
  116_00002524449725960345_117_00047555368847852436_116_00011478228926457352_016_00014157778651755175_016_00006134863894942243_116_00003338886116348349_015_00000816496580927726_0,
  116_00002524449725960345_117_00047555368847852436_117_00010473343315674478_017_00023204143261035248_016_00006449077518591619_116_00003338886116348349_015_00000816496580927726_0,
  116_00002524449725960345_117_00047555368847852436_015_00002026069633820765_116_00016037532043339278_016_00006763291142240996_116_00003338886116348349_115_00001224744871391589_0,
  116_00002524449725960345_116_00004081528028729957_116_00008521879121488555_016_00004427063909482209_015_00000723461157771506_016_00029950108064592316_115_00001224744871391589_0,
  117_00020244893896838492_116_00003407519172674287_016_00014738458023265935_116_00012325816110719694_016_00008020145636838499_116_00003338886116348349_015_00000816496580927726_0,
  117_00015245290534076375_117_00027335103166186175_116_00010027944116472658_015_00001074701265961826_016_00008334359260487876_116_00003338886116348349_015_00000816496580927726_0,
  117_00015245290534076375_117_00027335103166186175_116_00003445882286542132_016_00002721680913413756_016_00008648572884137251_116_00003338886116348349_115_00001224744871391589_0,
  117_00015245290534076375_117_00027335103166186175_116_00012147591146450287_016_00013455562123962277_016_00009119893319611315_116_00003338886116348349_015_00000816496580927726_0,
  117_00020244893896838492_116_00003407519172674287_116_00004784606726528002_017_00014175645046555194_016_00009434106943260692_116_00003338886116348349_015_00000816496580927726_0,
  117_00015245290534076375_117_00027335103166186175_116_00006681133016507984_016_00005129280437275106_016_00009748320566910068_116_00003338886116348349_015_00000816496580927726_0,
  117_00015245290534076375_117_00027335103166186175_116_00001493575811562738_117_00037989011303774045_016_00010062534190559445_116_00003338886116348349_015_00000816496580927726_0,
  117_00015245290534076375_117_00027335103166186175_017_00007934117734131232_117_00031970012494120725_015_00001037674781420882_116_00003338886116348349_015_00000816496580927726_0,
  117_00015245290534076375_117_00027335103166186175_117_00002664117415756904_117_00008897183723782728_016_00010690961437858195_116_00003338886116348349_115_00001224744871391589_0,
  117_00015245290534076375_117_00027335103166186175_017_00007934117734131232_017_00010162979173452956_015_00001116228187333226_016_00029950108064592316_115_00001224744871391589_0,
  117_00015245290534076375_116_00003407519172674287_116_00010418405411468539_016_00009743846191342698_014_00000119478159324557_116_00003338886116348349_015_00000816496580927726_0,
  117_00015245290534076375_117_00027335103166186175_116_00012593832626445576_016_00020076460814580996_016_00012262029556105076_116_00003338886116348349_115_00001224744871391589_0,
  117_00020244893896838492_116_00003407519172674287_017_00017416749184031147_117_00045011176581703016_015_00001273334999157914_116_00003338886116348349_015_00000816496580927726_0,
  117_00020244893896838492_116_00004081528028729957_016_00007710154713340118_116_00008915050118582778_016_00013047563615228517_116_00003338886116348349_015_00000816496580927726_0,
  116_00002524449725960345_116_00004081528028729957_017_00035266408383842746_116_00008513783531272554_016_00013361777238877892_116_00003338886116348349_015_00000816496580927726_0,
  116_00002524449725960345_116_00004081528028729957_115_00000829875838149091_016_00018872661052650317_016_00013675990862527267_116_00003338886116348349_015_00000816496580927726_1,
  116_00003024410062236841_117_00047555368847852436_018_00029139010841842207_115_00000399953442403252_016_00013990204486176645_116_00003338886116348349_015_00000816496580927726_0,
  116_00003024410062236841_116_00004081528028729957_016_00009048879153325988_116_00008814733471755224_015_00001430441810982602_116_00003338886116348349_015_00000816496580927726_0,
  116_00003024410062236841_117_00047555368847852436_016_00008546857488331286_114_00000116235995829268_016_00014618631733475396_116_00003338886116348349_115_00001224744871391589_0,
  117_00035243703985130526_117_00047555368847852436_117_00008799937765692141_117_00020935181343089515_015_00001508995216894946_116_00003338886116348349_115_00001224744871391589_0,
  117_00035243703985130526_116_00005429545740840913_014_00000413456062679851_115_00002466476367050912_016_00015561272604423524_116_00003338886116348349_015_00000816496580927726_0,
  116_00003024410062236841_117_00047555368847852436_117_00029996408065468416_016_00007135613373826232_014_00000158754862280729_116_00003338886116348349_115_00001224744871391589_0,
  116_00003024410062236841_116_00005429545740840913_117_00014377956265633265_117_00038992177772049624_016_00016346806663546964_016_00029950108064592316_115_00001224744871391589_0,
  116_00003024410062236841_117_00047555368847852436_015_00001139164692330126_116_00011824232876581913_116_00016959837443286896_016_00029950108064592316_115_00001224744871391589_0,
  116_00002524449725960345_117_00047555368847852436_116_00005398188761521525_016_00006232763552378227_116_00016174303384163455_116_00003338886116348349_015_00000816496580927726_0,
  116_00002524449725960345_117_00047555368847852436_117_00042825850615333005_016_00006734346786516008_116_00015860089760514078_116_00003338886116348349_015_00000816496580927726_0,
  116_00003024410062236841_117_00047555368847852436_115_00000556552931651976_016_00009743846191342698_116_00015545876136864702_016_00029950108064592316_115_00001224744871391589_0,
  116_00002524449725960345_117_00047555368847852436_017_00021321362133989932_117_00033976345430671806_116_00014760342077741262_116_00003338886116348349_015_00000816496580927726_0,
  117_00020244893896838492_116_00004081528028729957_116_00011589789296456174_016_00006433396846033335_116_00014446128454091887_116_00003338886116348349_015_00000816496580927726_0,
  116_00002524449725960345_117_00047555368847852436_016_00022436123553184686_116_00017542281745752621_116_00014131914830442511_116_00003338886116348349_015_00000816496580927726_0,
  116_00002524449725960345_116_00005429545740840913_116_00008131417826492676_016_00007336246667481341_116_00013817701206793134_116_00003338886116348349_015_00000816496580927726_0,
  116_00003024410062236841_116_00005429545740840913_116_00005900210426516227_017_00021197810324484165_116_00013503487583143758_116_00003338886116348349_015_00000816496580927726_0,
  116_00003024410062236841_116_00005429545740840913_116_00005286628391522703_016_00008239096488929353_116_00013189273959494383_116_00003338886116348349_015_00000816496580927726_0,
  116_00003024410062236841_116_00005429545740840913_017_00014069938084066472_117_00009900350192058306_116_00012875060335845006_116_00003338886116348349_015_00000816496580927726_0,
  116_00003024410062236841_117_00047555368847852436_116_00009023900786483257_016_00003624530734861761_115_00001256084671219563_116_00003338886116348349_015_00000816496580927726_0,
  116_00003024410062236841_117_00047555368847852436_117_00007684334065703917_017_00015178811514830773_116_00012246633088546255_116_00003338886116348349_015_00000816496580927726_0,
  116_00002524449725960345_116_00004081528028729957_116_00008466098936489144_016_00016264428235133859_116_00011932419464896877_116_00003338886116348349_115_00001224744871391589_0,
  116_00003024410062236841_116_00004081528028729957_115_00001186869022145323_016_00007536879961136456_116_00011461099029422814_116_00003338886116348349_115_00001224744871391589_0,
  116_00003024410062236841_117_00047555368847852436_116_00007685176346497387_016_00019073294346305432_116_00010989778593948751_116_00003338886116348349_015_00000816496580927726_0,
  116_00003024410062236841_117_00047555368847852436_016_00003191959728387807_116_00008212833590789884_116_00010675564970299374_116_00003338886116348349_015_00000816496580927726_0]

/-- lr/data.csv 2102-2201 -/
def dataCsv21 : List ℕ := [
  117_00035243703985130526_117_00047555368847852436_117_00037805633965385993_016_00006032130258723112_116_00010361351346649998_116_00003338886116348349_115_00001224744871391589_0,
  117_00035243703985130526_117_00047555368847852436_118_00060109285157215794_117_00021938347811365091_116_00009890030911175934_116_00003338886116348349_015_00000816496580927726_0,
  117_00035243703985130526_117_00047555368847852436_115_00001192447040645264_015_00002208279375113212_116_00009575817287526558_116_00003338886116348349_015_00000816496580927726_0,
  117_00035243703985130526_114_00000061035545968962_116_00009079680971482668_016_00006734346786516008_116_00009261603663877183_116_00003338886116348349_115_00001224744871391589_0,
  117_00035243703985130526_114_00000061035545968962_016_00003415080468385452_116_00004701750951825417_116_00008790283228403118_116_00003338886116348349_115_00001224744871391589_0,
  117_00035243703985130526_114_00000061035545968962_116_00002441838956552729_016_00004025797322171985_116_00008318962792929054_116_00003338886116348349_015_00000816496580927726_0,
  116_00003024410062236841_114_00000061035545968962_016_00005925188793358959_116_00011422966289271685_116_00008004749169279678_116_00003338886116348349_015_00000816496580927726_0,
  116_00003024410062236841_114_00000061035545968962_116_00006792693386506806_016_00007336246667481341_116_00007690535545630302_116_00003338886116348349_115_00001224744871391589_0,
  116_00003024410062236841_115_00000677756345295187_115_00000690425375650563_016_00011750179127893825_116_00007219215110156237_016_00029950108064592316_115_00001224744871391589_0,
  117_00035243703985130526_115_00000677756345295187_116_00002386058771553318_016_00003423897441206646_116_00006433681051032798_116_00003338886116348349_115_00001224744871391589_0,
  117_00035243703985130526_115_00000677756345295187_116_00001716696551560383_116_00005002700892308083_116_00005962360615558734_016_00029950108064592316_115_00001224744871391589_0,
  116_00003024410062236841_115_00000677756345295187_116_00005732869871517993_015_00000793814654844668_116_00005176826556435293_116_00003338886116348349_015_00000816496580927726_0,
  116_00002524449725960345_114_00000061035545968962_016_00017471687088237087_116_00017441965098925065_117_00048626129327859174_116_00003338886116348349_015_00000816496580927726_0,
  116_00002524449725960345_114_00000061035545968962_015_00001808526912323061_116_00017542281745752621_117_00045483993091365416_116_00003338886116348349_015_00000816496580927726_0,
  116_00003024410062236841_114_00000061035545968962_116_00009247021526480902_016_00004126113968999543_117_00042341856854871657_016_00029950108064592316_115_00001224744871391589_0,
  116_00003024410062236841_115_00000677756345295187_116_00007517835791499152_016_00007336246667481341_117_00034486516263637257_116_00003338886116348349_015_00000816496580927726_0,
  116_00003024410062236841_115_00000677756345295187_116_00008800780046485611_015_00000492864714361999_115_00000313443800271435_116_00003338886116348349_115_00001224744871391589_0,
  116_00003024410062236841_116_00007451572309007539_016_00012451470438290075_116_00010720749761478792_117_00026631175672402857_016_00029950108064592316_115_00001224744871391589_0,
  117_00035243703985130526_116_00007451572309007539_116_00006123331166513871_016_00003022630853896422_117_00018775835081168454_016_00029950108064592316_115_00001224744871391589_0,
  117_00035243703985130526_116_00007451572309007539_016_00017806368198233555_116_00015335315515546384_117_00010920494489934053_116_00003338886116348349_115_00001224744871391589_0,
  117_00040243307347895485_116_00008125581165062826_016_00020595377448204117_116_00018746081507683297_118_00062072901351934134_016_00029950108064592316_115_00001224744871391589_0,
  117_00040243307347895485_116_00008125581165062826_116_00001995597476557439_116_00002595101368446733_018_00016480504560409875_116_00003338886116348349_115_00001224744871391589_0,
  117_00040243307347895485_116_00008125581165062826_117_00008799937765692141_117_00010903516660333884_017_00006361254810781627_116_00003338886116348349_115_00001224744871391589_0,
  117_00035243703985130526_115_00000677756345295187_116_00002664959696550374_115_00000159193490017117_017_00011074459165522269_116_00003338886116348349_015_00000816496580927726_0,
  117_00040243307347895485_116_00007451572309007539_115_00000606755098151446_117_00008897183723782728_016_00001421659540201603_116_00003338886116348349_015_00000816496580927726_0,
  117_00035243703985130526_116_00007451572309007539_116_00015661742801413194_016_00029506225616371293_016_00001735873163850979_116_00003338886116348349_015_00000816496580927726_1,
  117_00035243703985130526_115_00000677756345295187_116_00005007727466525647_016_00006533713492860893_016_00002050086787500355_116_00003338886116348349_015_00000816496580927726_0,
  117_00035243703985130526_115_00000677756345295187_116_00006346451906511517_017_00006150313300350718_016_00002364300411149731_016_00029950108064592316_115_00001224744871391589_0,
  116_00003024410062236841_115_00000677756345295187_016_00014571117468267702_116_00015736582102856609_016_00003149834470273171_116_00003338886116348349_015_00000816496580927726_0,
  116_00003024410062236841_115_00000677756345295187_016_00003805541763381331_116_00006306817301066312_016_00003464048093922547_016_00029950108064592316_115_00001224744871391589_0,
  116_00003024410062236841_115_00000677756345295187_116_00008242978196491499_016_00018270761171684984_016_00004249582153045987_116_00003338886116348349_015_00000816496580927726_0,
  116_00003024410062236841_114_00000061035545968962_116_00005955990611515638_016_00005430230377757772_016_00004563795776695363_116_00003338886116348349_015_00000816496580927726_0,
  116_00003024410062236841_115_00000677756345295187_016_00006761891568350127_114_00000116235995829268_017_00048780094003447394_116_00003338886116348349_015_00000816496580927726_0,
  117_00035243703985130526_115_00000677756345295187_016_00010778064888307737_116_00010319483174168569_016_00005192223023994115_016_00029950108064592316_115_00001224744871391589_0,
  117_00035243703985130526_115_00000677756345295187_117_00036690030265397766_016_00006333080199205777_016_00005977757083117555_116_00003338886116348349_015_00000816496580927726_0,
  117_00035243703985130526_115_00000677756345295187_117_00015493559965621492_016_00007837829901619122_016_00006291970706766932_116_00003338886116348349_015_00000816496580927726_0,
  117_00040243307347895485_116_00007451572309007539_016_00002745718248392517_017_00015178811514830773_016_00006606184330416307_116_00003338886116348349_015_00000816496580927726_0,
  117_00035243703985130526_116_00007451572309007539_016_00004698024723371911_116_00008915050118582778_016_00006920397954065683_116_00003338886116348349_015_00000816496580927726_0,
  117_00035243703985130526_115_00000677756345295187_015_00001088962525830656_116_00009416633352720559_015_00000723461157771506_116_00003338886116348349_015_00000816496580927726_0,
  117_00035243703985130526_115_00000677756345295187_115_00000690425375650563_016_00007637196607964014_016_00007548825201364435_116_00003338886116348349_015_00000816496580927726_0,
  117_00035243703985130526_115_00000677756345295187_116_00006681133016507984_015_00000663403013968845_016_00007863038825013812_116_00003338886116348349_015_00000816496580927726_0,
  117_00035243703985130526_116_00007451572309007539_017_00021321362133989932_116_00005103017539135641_016_00008177252448663187_116_00003338886116348349_115_00001224744871391589_0,
  117_00035243703985130526_116_00007451572309007539_116_00009079680971482668_015_00002037741075506366_016_00008648572884137251_116_00003338886116348349_015_00000816496580927726_0,
  117_00035243703985130526_116_00008125581165062826_116_00005398188761521525_016_00009041629663549801_016_00008962786507786628_116_00003338886116348349_115_00001224744871391589_0,
  116_00003024410062236841_116_00007451572309007539_116_00004896167096526824_017_00005147146832075141_016_00009434106943260692_116_00003338886116348349_015_00000816496580927726_0,
  117_00035243703985130526_116_00008125581165062826_017_00006260712184148895_016_00005831496965067996_016_00009748320566910068_116_00003338886116348349_015_00000816496580927726_0,
  117_00035243703985130526_116_00008125581165062826_016_00006036749163357781_116_00007109350475686768_016_00010062534190559445_116_00003338886116348349_015_00000816496580927726_0,
  116_00003024410062236841_116_00007451572309007539_017_00006260712184148895_116_00006306817301066312_015_00001037674781420882_116_00003338886116348349_015_00000816496580927726_0,
  116_00003024410062236841_116_00007451572309007539_017_00024668173233954607_116_00005905550713756088_016_00010690961437858195_116_00003338886116348349_015_00000816496580927726_0,
  116_00003024410062236841_115_00000677756345295187_017_00041402228733777985_116_00007811567003479657_016_00011005175061507573_116_00003338886116348349_015_00000816496580927726_0,
  117_00035243703985130526_116_00008125581165062826_016_00005423167128364257_117_00045011176581703016_016_00011319388685156948_016_00029950108064592316_115_00001224744871391589_0,
  117_00035243703985130526_116_00008799590021118496_116_00013932557066431446_016_00011549545834238708_016_00012104922744280389_116_00003338886116348349_115_00001224744871391589_0,
  117_00035243703985130526_116_00008125581165062826_016_00006092529348357192_114_00000116235995829268_016_00012576243179754452_116_00003338886116348349_115_00001224744871391589_0,
  117_00035243703985130526_116_00008125581165062826_116_00007908297086495032_016_00005430230377757772_016_00013047563615228517_016_00029950108064592316_115_00001224744871391589_0,
  117_00035243703985130526_116_00007451572309007539_015_00001273037136328713_116_00015234998868718825_016_00013833097674351955_116_00003338886116348349_115_00001224744871391589_0,
  117_00035243703985130526_116_00008125581165062826_116_00011031987446462062_016_00007737513254791571_015_00001430441810982602_116_00003338886116348349_015_00000816496580927726_0,
  116_00003024410062236841_116_00007451572309007539_117_00045614859865303564_017_00015178811514830773_016_00014618631733475396_116_00003338886116348349_115_00001224744871391589_0,
  116_00003024410062236841_115_00000677756345295187_016_00022324563183185866_115_00002025083121009664_015_00001508995216894946_116_00003338886116348349_115_00001224744871391589_0,
  116_00002524449725960345_115_00000677756345295187_116_00007796736716496209_016_00009743846191342698_016_00015561272604423524_116_00003338886116348349_115_00001224744871391589_0,
  116_00002524449725960345_115_00000677756345295187_017_00035266408383842746_116_00008714416824927665_015_00001603259303989759_116_00003338886116348349_115_00001224744871391589_0,
  116_00003024410062236841_115_00000677756345295187_116_00001772476736559794_017_00010162979173452956_016_00016503913475371652_116_00003338886116348349_015_00000816496580927726_0,
  116_00003024410062236841_114_00000061035545968962_116_00004171024691534478_017_00005147146832075141_016_00016818127099021027_116_00003338886116348349_015_00000816496580927726_0,
  116_00002524449725960345_114_00000061035545968962_116_00011310888371459118_017_00021197810324484165_016_00017132340722670405_116_00003338886116348349_015_00000816496580927726_0,
  117_00020244893896838492_116_00005429545740840913_115_00000651379246150975_118_00018750184458538297_015_00001744655434631978_116_00003338886116348349_015_00000816496580927726_0,
  117_00020244893896838492_116_00005429545740840913_019_00068269368420777075_117_00032973178962396227_016_00017760767969969156_116_00003338886116348349_015_00000816496580927726_0,
  116_00002524449725960345_114_00000061035545968962_116_00003501662471541543_016_00007837829901619122_016_00018074981593618533_116_00003338886116348349_015_00000816496580927726_0,
  117_00020244893896838492_116_00005429545740840913_016_00018308389863228256_116_00016639431924304617_016_00018389195217267909_116_00003338886116348349_115_00001224744871391589_1,
  117_00020244893896838492_114_00000061035545968962_016_00002745718248392517_017_00013172478578279617_116_00016959837443286896_016_00029950108064592316_115_00001224744871391589_0,
  116_00002524449725960345_114_00000061035545968962_116_00006625352831508573_016_00009543212897687582_116_00016174303384163455_116_00003338886116348349_115_00001224744871391589_0,
  116_00002524449725960345_114_00000061035545968962_115_00000690425375650563_016_00009242262957204916_115_00001570298294868939_116_00003338886116348349_015_00000816496580927726_0,
  116_00003024410062236841_114_00000061035545968962_116_00002162938031555673_016_00003323580794379088_116_00015388769325040015_116_00003338886116348349_115_00001224744871391589_0,
  116_00002524449725960345_114_00000061035545968962_117_00020513776615568505_016_00004627697203137324_115_00001491744888956595_116_00003338886116348349_015_00000816496580927726_0,
  116_00002524449725960345_116_00005429545740840913_016_00015463600428258282_115_00001704069851161484_116_00014603235265916574_116_00003338886116348349_015_00000816496580927726_0,
  116_00002524449725960345_116_00005429545740840913_116_00002441838956552729_016_00001618197798310635_114_00000142890216422672_116_00003338886116348349_115_00001224744871391589_0,
  117_00020244893896838492_116_00005429545740840913_016_00001853235288401937_116_00006607767241548985_116_00013817701206793134_116_00003338886116348349_015_00000816496580927726_0,
  116_00002524449725960345_116_00005429545740840913_017_00028572786183913396_117_00040998510708600777_116_00013503487583143758_116_00003338886116348349_115_00001224744871391589_0,
  117_00020244893896838492_117_00047555368847852436_116_00008466098936489144_016_00008339413135756903_116_00013032167147669695_116_00003338886116348349_115_00001224744871391589_0,
  117_00020244893896838492_116_00005429545740840913_116_00008131417826492676_016_00007737513254791571_115_00001256084671219563_116_00003338886116348349_115_00001224744871391589_0,
  117_00020244893896838492_116_00005429545740840913_017_00035266408383842746_117_00026954180152742907_116_00012089526276721567_116_00003338886116348349_015_00000816496580927726_0,
  117_00020244893896838492_116_00005429545740840913_017_00034708606533848635_116_00006708083888376544_115_00001177531265307219_116_00003338886116348349_015_00000816496580927726_0,
  117_00020244893896838492_116_00005429545740840913_016_00003247739913387218_116_00003698584483549854_116_00011461099029422814_016_00029950108064592316_115_00001224744871391589_0,
  116_00002524449725960345_114_00000061035545968962_017_00005145108484160671_016_00004326747262654651_116_00010675564970299374_016_00029950108064592316_115_00001224744871391589_0,
  116_00002524449725960345_116_00005429545740840913_116_00012538052441446166_016_00021882160457477005_116_00009890030911175934_116_00003338886116348349_115_00001224744871391589_0,
  117_00020244893896838492_117_00047555368847852436_017_00021321362133989932_118_00018750184458538297_115_00000941871047570187_116_00003338886116348349_115_00001224744871391589_0,
  117_00010245687171311416_116_00004081528028729957_116_00003557442656540954_016_00003423897441206646_116_00008947390040227806_116_00003338886116348349_015_00000816496580927726_0,
  117_00010245687171311416_116_00004081528028729957_016_00005088486018367789_116_00007610933709824549_115_00000863317641657843_116_00003338886116348349_015_00000816496580927726_0,
  117_00015245290534076375_116_00004081528028729957_116_00005230848206523292_016_00002922314207068864_116_00008318962792929054_116_00003338886116348349_015_00000816496580927726_0,
  117_00010245687171311416_116_00004081528028729957_115_00000556552931651976_016_00007436563314308898_116_00008004749169279678_116_00003338886116348349_115_00001224744871391589_0,
  117_00015245290534076375_117_00047555368847852436_116_00006625352831508573_016_00004126113968999543_116_00007533428733805614_116_00003338886116348349_015_00000816496580927726_0,
  117_00015245290534076375_116_00005429545740840913_017_00008491919584125346_016_00001618197798310635_116_00007219215110156237_016_00029950108064592316_115_00001224744871391589_0,
  117_00020244893896838492_114_00000061035545968962_117_00037805633965385993_016_00004326747262654651_116_00006433681051032798_116_00003338886116348349_115_00001224744871391589_0,
  117_00020244893896838492_115_00000677756345295187_016_00006092529348357192_115_00000640713394789387_116_00005962360615558734_116_00003338886116348349_015_00000816496580927726_0,
  117_00020244893896838492_115_00000677756345295187_117_00037247832115391877_016_00008840996369894685_116_00005648146991909357_116_00003338886116348349_015_00000816496580927726_0,
  116_00002524449725960345_116_00007451572309007539_116_00005063507651525058_016_00002922314207068864_116_00005333933368259982_116_00003338886116348349_115_00001224744871391589_0,
  117_00020244893896838492_116_00007451572309007539_016_00001630114548404292_116_00004701750951825417_117_00048626129327859174_116_00003338886116348349_115_00001224744871391589_0,
  117_00020244893896838492_116_00007451572309007539_017_00041402228733777985_116_00009216000059065448_116_00004391292497311854_116_00003338886116348349_015_00000816496580927726_0,
  117_00015245290534076375_116_00007451572309007539_017_00006818514034143008_117_00046014343049978595_117_00040770788736624775_116_00003338886116348349_115_00001224744871391589_0,
  117_00015245290534076375_115_00000677756345295187_116_00007071594311503863_016_00009242262957204916_117_00036057584381884134_116_00003338886116348349_015_00000816496580927726_0,
  117_00015245290534076375_116_00007451572309007539_115_00000339010210154272_017_00010162979173452956_117_00032915448145390375_116_00003338886116348349_115_00001224744871391589_0,
  117_00010245687171311416_114_00000061035545968962_116_00015103940951419084_015_00001807012787802987_117_00028202243790649734_116_00003338886116348349_115_00001224744871391589_0]

/-- lr/data.csv 2202-2301 -/
def dataCsv22 : List ℕ := [
  117_00010245687171311416_114_00000061035545968962_018_00040295047841724455_117_00044008010113427437_117_00023489039435909095_116_00003338886116348349_015_00000816496580927726_0,
  117_00010245687171311416_115_00000677756345295187_016_00001574334363404881_117_00038992177772049624_117_00020346903199415334_116_00003338886116348349_015_00000816496580927726_0,
  117_00005246083808549298_116_00005429545740840913_017_00005145108484160671_117_00043004843645151863_117_00017204766962921575_116_00003338886116348349_115_00001224744871391589_0,
  117_00010245687171311416_115_00000677756345295187_017_00041960030583772095_116_00009216000059065448_117_00012491562608180934_116_00003338886116348349_015_00000816496580927726_0,
  117_00015245290534076375_114_00000061035545968962_116_00010418405411468539_016_00006132446905550669_117_00009349426371687174_116_00003338886116348349_115_00001224744871391589_0,
  117_00005246083808549298_116_00005429545740840913_016_00004753804908371322_116_00005403967479618307_118_00046362220169465326_116_00003338886116348349_015_00000816496580927726_0,
  117_00005246083808549298_116_00005429545740840913_116_00005732869871517993_015_00001205112906837649_118_00014940857804527726_116_00003338886116348349_015_00000816496580927726_0,
  117_00010245687171311416_116_00005429545740840913_017_00029130588033907506_117_00024947847216191754_018_00016480504560409875_116_00003338886116348349_015_00000816496580927726_0,
  117_00010245687171311416_116_00005429545740840913_116_00005788650056517404_016_00002621364266586198_017_00004790186692534748_016_00029950108064592316_115_00001224744871391589_0,
  117_00010245687171311416_117_00047555368847852436_116_00008521879121488555_016_00009442896250860024_017_00012645527283769148_116_00003338886116348349_015_00000816496580927726_0,
  117_00015245290534076375_116_00005429545740840913_116_00007685176346497387_016_00014157778651755175_016_00001578766352026291_116_00003338886116348349_015_00000816496580927726_0,
  117_00020244893896838492_115_00000677756345295187_116_00016386885206405541_016_00024089126687683247_017_00018929799756756668_116_00003338886116348349_115_00001224744871391589_0,
  117_00015245290534076375_114_00000061035545968962_116_00003557442656540954_019_00013131449069732513_016_00002364300411149731_116_00003338886116348349_015_00000816496580927726_0,
  117_00015245290534076375_114_00000061035545968962_117_00036690030265397766_117_00005887684318956068_016_00002678514034799107_116_00003338886116348349_015_00000816496580927726_0,
  117_00015245290534076375_116_00005429545740840913_116_00010251064856470304_016_00004828330496792433_016_00002992727658448483_016_00029950108064592316_115_00001224744871391589_0,
  117_00015245290534076375_116_00005429545740840913_116_00003947903951536833_015_00000964352954451514_016_00003778261717571923_016_00029950108064592316_115_00001224744871391589_0,
  117_00015245290534076375_116_00005429545740840913_016_00005925188793358959_116_00009216000059065448_016_00004563795776695363_116_00003338886116348349_015_00000816496580927726_0,
  117_00015245290534076375_114_00000061035545968962_116_00010697306336465593_016_00015361578413685846_017_00048780094003447394_116_00003338886116348349_015_00000816496580927726_0,
  117_00015245290534076375_114_00000061035545968962_016_00009718241373318923_116_00006507450594721428_016_00005192223023994115_116_00003338886116348349_015_00000816496580927726_0,
  117_00020244893896838492_114_00000061035545968962_116_00005788650056517404_016_00008439729782584461_016_00005506436647643491_116_00003338886116348349_115_00001224744871391589_0,
  117_00020244893896838492_115_00000677756345295187_015_00001100118562830538_116_00013930882459960594_016_00005977757083117555_116_00003338886116348349_115_00001224744871391589_0,
  117_00020244893896838492_115_00000677756345295187_116_00009302801711480313_016_00020477727401891217_016_00006449077518591619_116_00003338886116348349_015_00000816496580927726_0,
  117_00015245290534076375_115_00000677756345295187_017_00036939813933825083_116_00007009033828859209_016_00006763291142240996_116_00003338886116348349_015_00000816496580927726_0,
  117_00020244893896838492_115_00000677756345295187_116_00007015814126504452_016_00008540046429412019_016_00007077504765890371_116_00003338886116348349_015_00000816496580927726_0,
  117_00015245290534076375_115_00000677756345295187_016_00005925188793358959_115_00000811251694396233_016_00007391718389539748_116_00003338886116348349_115_00001224744871391589_0,
  117_00015245290534076375_115_00000677756345295187_116_00004115244506535067_016_00009041629663549801_016_00007863038825013812_116_00003338886116348349_115_00001224744871391589_0,
  117_00020244893896838492_116_00007451572309007539_016_00008156396193335408_116_00012225499463892138_016_00008334359260487876_116_00003338886116348349_115_00001224744871391589_0,
  116_00002524449725960345_116_00008125581165062826_016_00023774847993170556_116_00019648931329131307_015_00000880567969596194_116_00003338886116348349_015_00000816496580927726_0,
  116_00003024410062236841_116_00009473598877173782_018_00017982973841959956_017_00018188310919657433_016_00009119893319611315_016_00029950108064592316_115_00001224744871391589_0,
  116_00003024410062236841_116_00008799590021118496_016_00007933275453337764_116_00009216000059065448_016_00009905427378734756_116_00003338886116348349_015_00000816496580927726_0,
  116_00002524449725960345_116_00008799590021118496_116_00005175068021523881_016_00005731180318240445_016_00010219641002384132_116_00003338886116348349_015_00000816496580927726_0,
  116_00003024410062236841_116_00009473598877173782_115_00000690425375650563_016_00016465061528788967_016_00010533854626033508_116_00003338886116348349_015_00000816496580927726_0,
  116_00002524449725960345_116_00009473598877173782_016_00007431253788343062_116_00009516949999548118_016_00010848068249682883_116_00003338886116348349_015_00000816496580927726_0,
  116_00002524449725960345_116_00008799590021118496_015_00005635047603282673_115_00002707236319437047_015_00001116228187333226_116_00003338886116348349_015_00000816496580927726_1,
  116_00003024410062236841_116_00009473598877173782_116_00002609179511550963_017_00005147146832075141_016_00011476495496981636_116_00003338886116348349_015_00000816496580927726_0,
  116_00003024410062236841_116_00009473598877173782_116_00004673046356529179_016_00002721680913413756_015_00001179070912063101_116_00003338886116348349_115_00001224744871391589_0,
  117_00035243703985130526_116_00010147607733229451_115_00000651379246150975_015_00000312294750072398_016_00012262029556105076_116_00003338886116348349_115_00001224744871391589_0,
  117_00035243703985130526_116_00009473598877173782_116_00007573615976498564_016_00010646696012790704_015_00001273334999157914_116_00003338886116348349_015_00000816496580927726_0,
  117_00035243703985130526_116_00009473598877173782_117_00036132228415403655_015_00000964352954451514_016_00013047563615228517_116_00003338886116348349_015_00000816496580927726_0,
  117_00040243307347895485_116_00009473598877173782_116_00008800780046485611_016_00010044796131825364_016_00013361777238877892_116_00003338886116348349_015_00000816496580927726_0,
  117_00040243307347895485_116_00010147607733229451_117_00045614859865303564_016_00004728013849964882_016_00013675990862527267_116_00003338886116348349_015_00000816496580927726_0,
  117_00040243307347895485_116_00010821616589285121_016_00009606681003320101_115_00001112201634878902_016_00013990204486176645_116_00003338886116348349_015_00000816496580927726_0,
  117_00040243307347895485_116_00010821616589285121_016_00007152352863346005_116_00011021699701961463_015_00001430441810982602_116_00003338886116348349_015_00000816496580927726_0,
  117_00040243307347895485_116_00010821616589285121_116_00004115244506535067_116_00005002700892308083_016_00014618631733475396_116_00003338886116348349_015_00000816496580927726_0,
  117_00035243703985130526_116_00010821616589285121_018_00017982973841959956_117_00024947847216191754_016_00014932845357124773_116_00003338886116348349_115_00001224744871391589_1,
  117_00035243703985130526_116_00010821616589285121_115_00000562130950151917_017_00023204143261035248_116_00016959837443286896_116_00003338886116348349_115_00001224744871391589_0,
  117_00035243703985130526_116_00010821616589285121_115_00000740627542150033_016_00007436563314308898_115_00001648851700781283_116_00003338886116348349_015_00000816496580927726_0,
  117_00040243307347895485_116_00010821616589285121_116_00007964077271494443_016_00008540046429412019_116_00016174303384163455_116_00003338886116348349_115_00001224744871391589_0,
  117_00035243703985130526_116_00010147607733229451_116_00013095854291440279_016_00020678360695546334_115_00001570298294868939_116_00003338886116348349_115_00001224744871391589_0,
  117_00040243307347895485_116_00010147607733229451_116_00005398188761521525_016_00006533713492860893_116_00015231662513215327_116_00003338886116348349_015_00000816496580927726_0,
  117_00040243307347895485_116_00010821616589285121_116_00007964077271494443_016_00008740679723067134_115_00001491744888956595_116_00003338886116348349_115_00001224744871391589_0,
  115_00000452429107106576_115_00001149562544534041_116_00006402232091510928_016_00003423897441206646_116_00014446128454091887_016_00029950108064592316_115_00001224744871391589_0,
  115_00000452429107106576_115_00001149562544534041_116_00004896167096526824_017_00028219975602413067_116_00013660594394968446_016_00029950108064592316_115_00001224744871391589_0,
  117_00040243307347895485_116_00010821616589285121_116_00008521879121488555_016_00014157778651755175_116_00012875060335845006_116_00003338886116348349_015_00000816496580927726_0,
  115_00000452429107106576_115_00001149562544534041_115_00001192447040645264_016_00006934980080171117_115_00001256084671219563_116_00003338886116348349_015_00000816496580927726_0,
  115_00000452429107106576_115_00001149562544534041_017_00011280928834095907_116_00006306817301066312_116_00012246633088546255_116_00003338886116348349_015_00000816496580927726_0,
  115_00000452429107106576_115_00001149562544534041_116_00002776520066549197_116_00001892884840653836_116_00011932419464896877_116_00003338886116348349_015_00000816496580927726_0,
  115_00000452429107106576_115_00001149562544534041_016_00019702894488213536_116_00014833732281408603_116_00011618205841247502_116_00003338886116348349_015_00000816496580927726_0,
  115_00000452429107106576_115_00001216963430139608_115_00001225915151644911_015_00002037741075506366_116_00011303992217598127_116_00003338886116348349_015_00000816496580927726_0,
  115_00000452429107106576_115_00001149562544534041_116_00006011770796515049_016_00012352079008859156_116_00010989778593948751_116_00003338886116348349_015_00000816496580927726_0,
  115_00000452429107106576_115_00001149562544534041_117_00009915541465680366_117_00034979511898947385_116_00010675564970299374_016_00029950108064592316_115_00001224744871391589_0,
  115_00000452429107106576_115_00001216963430139608_116_00005788650056517404_016_00005229597084102664_116_00009890030911175934_116_00003338886116348349_115_00001224744871391589_0,
  115_00000452429107106576_115_00001149562544534041_118_00032219192657510165_017_00024207309729310825_115_00000941871047570187_116_00003338886116348349_015_00000816496580927726_0,
  117_00040243307347895485_116_00010821616589285121_117_00005453126665727467_016_00003022630853896422_116_00009104496852052494_116_00003338886116348349_115_00001224744871391589_0,
  117_00040243307347895485_116_00010821616589285121_115_00000690425375650563_016_00003524214088034203_115_00000863317641657843_116_00003338886116348349_115_00001224744871391589_0,
  117_00040243307347895485_116_00010821616589285121_116_00011645569481455584_016_00011248595893756042_116_00008161855981104366_116_00003338886116348349_115_00001224744871391589_0,
  117_00040243307347895485_116_00010147607733229451_116_00008800780046485611_016_00020678360695546334_116_00007690535545630302_116_00003338886116348349_015_00000816496580927726_0,
  117_00040243307347895485_116_00010147607733229451_116_00009414362081479135_016_00012452395655686714_116_00007376321921980926_116_00003338886116348349_015_00000816496580927726_0,
  117_00040243307347895485_116_00010147607733229451_115_00000562130950151917_015_00000663403013968845_115_00000706210829833155_116_00003338886116348349_015_00000816496580927726_0,
  117_00035243703985130526_116_00009473598877173782_116_00012538052441446166_016_00008239096488929353_116_00006747894674682174_116_00003338886116348349_015_00000816496580927726_0,
  117_00035243703985130526_116_00009473598877173782_116_00005677089686518582_016_00008138779842101795_116_00006433681051032798_116_00003338886116348349_015_00000816496580927726_0,
  117_00040243307347895485_116_00010147607733229451_016_00015742501353255338_116_00013930882459960594_116_00006119467427383422_116_00003338886116348349_015_00000816496580927726_0,
  117_00035243703985130526_116_00009473598877173782_116_00005063507651525058_016_00012151445715204048_116_00005805253803734046_116_00003338886116348349_115_00001224744871391589_0,
  117_00035243703985130526_116_00010147607733229451_017_00028014984333919285_116_00007309983769341876_116_00005333933368259982_116_00003338886116348349_015_00000816496580927726_0,
  117_00035243703985130526_116_00009473598877173782_117_00010473343315674478_116_00006306817301066312_116_00005019719744610606_116_00003338886116348349_015_00000816496580927726_0,
  117_00035243703985130526_116_00009473598877173782_017_00036939813933825083_117_00029963679557569567_115_00000470550612096123_116_00003338886116348349_015_00000816496580927726_0,
  117_00035243703985130526_116_00008799590021118496_116_00008131417826492676_016_00014258095298582731_116_00004391292497311854_116_00003338886116348349_015_00000816496580927726_0,
  117_00035243703985130526_116_00008799590021118496_116_00007294715051501508_016_00004427063909482209_117_00040770788736624775_016_00029950108064592316_115_00001224744871391589_0,
  117_00035243703985130526_116_00008799590021118496_117_00044499256165315343_117_00044008010113427437_117_00032915448145390375_116_00003338886116348349_115_00001224744871391589_0,
  116_00003024410062236841_116_00008799590021118496_117_00007684334065703917_117_00009900350192058306_117_00028202243790649734_116_00003338886116348349_015_00000816496580927726_0,
  116_00003024410062236841_116_00008125581165062826_115_00000829875838149091_016_00017066961409754307_117_00025060107554155975_116_00003338886116348349_015_00000816496580927726_0,
  117_00035243703985130526_116_00008799590021118496_118_00015485137157686792_117_00010903516660333884_117_00021917971317662216_116_00003338886116348349_015_00000816496580927726_0,
  116_00003024410062236841_116_00008799590021118496_117_00044499256165315343_016_00007637196607964014_117_00018775835081168454_116_00003338886116348349_015_00000816496580927726_0,
  117_00040243307347895485_116_00010147607733229451_116_00008466098936489144_016_00011148279246928485_117_00015633698844674693_116_00003338886116348349_015_00000816496580927726_0,
  117_00040243307347895485_116_00010147607733229451_116_00008968120601483845_016_00013455562123962277_117_00012491562608180934_116_00003338886116348349_015_00000816496580927726_0,
  116_00003024410062236841_116_00008799590021118496_116_00008800780046485611_015_00001676601146927164_117_00009349426371687174_116_00003338886116348349_015_00000816496580927726_0,
  116_00003024410062236841_116_00008799590021118496_116_00013932557066431446_016_00020578044048718778_118_00062072901351934134_116_00003338886116348349_115_00001224744871391589_0,
  116_00003024410062236841_116_00009473598877173782_016_00011558987478299494_114_00000132286659321677_118_00014940857804527726_116_00003338886116348349_015_00000816496580927726_0,
  116_00003024410062236841_116_00009473598877173782_018_00012404955342018832_117_00008897183723782728_018_00016480504560409875_116_00003338886116348349_115_00001224744871391589_0,
  116_00003024410062236841_116_00008799590021118496_117_00019398172915580278_117_00021938347811365091_017_00006361254810781627_116_00003338886116348349_015_00000816496580927726_0,
  116_00002524449725960345_116_00008799590021118496_116_00012147591146450287_016_00011950812421548933_017_00009503391047275388_116_00003338886116348349_115_00001224744871391589_0,
  116_00002524449725960345_116_00008125581165062826_015_00001936821337821707_116_00019147348094993524_016_00001421659540201603_116_00003338886116348349_115_00001224744871391589_0,
  117_00020244893896838492_116_00007451572309007539_115_00000651379246150975_016_00013254928830307169_017_00018929799756756668_116_00003338886116348349_015_00000816496580927726_0,
  116_00002524449725960345_116_00007451572309007539_117_00010473343315674478_117_00016922515469987276_016_00002207193599325043_116_00003338886116348349_015_00000816496580927726_0,
  116_00003024410062236841_116_00008125581165062826_017_00049211454633695556_116_00007410300416169433_016_00002521407222974419_116_00003338886116348349_015_00000816496580927726_0,
  116_00003024410062236841_116_00008799590021118496_116_00001493575811562738_117_00027957346621018414_016_00002835620846623795_116_00003338886116348349_015_00000816496580927726_0,
  116_00003024410062236841_116_00008799590021118496_017_00007934117734131232_016_00002721680913413756_016_00003149834470273171_116_00003338886116348349_015_00000816496580927726_0,
  117_00035243703985130526_116_00008799590021118496_016_00014682677838266525_115_00001403119910678815_016_00003464048093922547_116_00003338886116348349_015_00000816496580927726_0,
  117_00035243703985130526_116_00009473598877173782_117_00031669813615450754_117_00023944680747916175_016_00003778261717571923_116_00003338886116348349_015_00000816496580927726_0,
  116_00003024410062236841_116_00008799590021118496_116_00005175068021523881_015_00002298564357258013_016_00004092475341221299_116_00003338886116348349_015_00000816496580927726_1]

/-- lr/data.csv 2302-2401 -/
def dataCsv23 : List ℕ := [
  117_00035243703985130526_116_00009473598877173782_116_00009358581896479724_016_00010546379365963146_017_00044066889648706753_116_00003338886116348349_015_00000816496580927726_0,
  117_00040243307347895485_116_00009473598877173782_016_00002634157878393695_117_00043004843645151863_016_00004720902588520051_116_00003338886116348349_115_00001224744871391589_0,
  117_00040243307347895485_116_00010147607733229451_117_00013262352565645041_118_00018750184458538297_016_00005192223023994115_116_00003338886116348349_015_00000816496580927726_0,
  117_00040243307347895485_116_00010147607733229451_115_00000919124134148149_016_00013656195417617392_016_00005506436647643491_116_00003338886116348349_015_00000816496580927726_0,
  115_00000452429107106576_116_00010147607733229451_116_00004673046356529179_118_00018750184458538297_016_00005820650271292868_116_00003338886116348349_015_00000816496580927726_0,
  117_00040243307347895485_116_00010147607733229451_115_00001097620726146265_016_00007536879961136456_016_00006134863894942243_016_00029950108064592316_115_00001224744871391589_0,
  115_00000452429107106576_116_00009473598877173782_116_00015550182431414372_016_00017869494584374754_016_00006920397954065683_116_00003338886116348349_015_00000816496580927726_0,
  116_00005024251407342256_116_00010147607733229451_016_00004698024723371911_116_00006507450594721428_015_00000723461157771506_016_00029950108064592316_115_00001224744871391589_0,
  115_00000452429107106576_116_00010147607733229451_116_00009358581896479724_015_00001556221170734096_016_00008020145636838499_116_00003338886116348349_015_00000816496580927726_0,
  115_00000452429107106576_116_00009473598877173782_016_00004028662503378976_116_00008614100178100111_016_00008334359260487876_116_00003338886116348349_015_00000816496580927726_0,
  116_00005024251407342256_116_00010821616589285121_118_00021063155657627917_016_00007536879961136456_016_00008648572884137251_116_00003338886116348349_115_00001224744871391589_0,
  115_00000452429107106576_116_00009473598877173782_116_00002664959696550374_117_00014916182533436123_016_00009119893319611315_116_00003338886116348349_115_00001224744871391589_0,
  115_00000452429107106576_116_00009473598877173782_116_00005453968946520936_117_00037989011303774045_016_00009591213755085379_116_00003338886116348349_115_00001224744871391589_0,
  115_00000452429107106576_116_00008125581165062826_016_00010387603593311858_116_00013429299225822813_016_00010062534190559445_116_00003338886116348349_115_00001224744871391589_0,
  117_00040243307347895485_116_00007451572309007539_116_00009525922451477957_015_00000723593002065379_016_00010533854626033508_116_00003338886116348349_015_00000816496580927726_0,
  117_00040243307347895485_116_00007451572309007539_117_00007126532215709803_117_00020935181343089515_016_00010848068249682883_116_00003338886116348349_015_00000816496580927726_0,
  117_00040243307347895485_116_00008125581165062826_018_00017982973841959956_117_00007894017255507152_015_00001116228187333226_116_00003338886116348349_015_00000816496580927726_0,
  117_00040243307347895485_116_00008125581165062826_017_00036939813933825083_116_00008915050118582778_016_00011476495496981636_116_00003338886116348349_015_00000816496580927726_0,
  117_00040243307347895485_116_00008125581165062826_116_00007462055606499741_016_00011449229187411152_015_00001179070912063101_116_00003338886116348349_015_00000816496580927726_0,
  117_00040243307347895485_116_00008125581165062826_016_00008993098968326577_116_00006507450594721428_016_00012104922744280389_116_00003338886116348349_115_00001224744871391589_0,
  117_00040243307347895485_116_00008125581165062826_116_00005509749131520348_117_00008897183723782728_016_00012576243179754452_016_00029950108064592316_115_00001224744871391589_0,
  117_00040243307347895485_116_00008125581165062826_116_00012538052441446166_015_00001255271230251427_016_00013361777238877892_116_00003338886116348349_115_00001224744871391589_0,
  117_00040243307347895485_116_00008799590021118496_117_00013820154415639155_016_00001919147738793301_016_00013833097674351955_116_00003338886116348349_015_00000816496580927726_0,
  117_00040243307347895485_116_00008799590021118496_116_00007685176346497387_016_00007035296726998674_016_00014147311298001333_116_00003338886116348349_115_00001224744871391589_0,
  117_00035243703985130526_116_00008125581165062826_016_00005423167128364257_116_00010118849880513456_016_00014618631733475396_116_00003338886116348349_015_00000816496580927726_0,
  117_00035243703985130526_116_00008125581165062826_017_00035824210233836856_116_00006106184007411204_016_00014932845357124773_116_00003338886116348349_015_00000816496580927726_0,
  116_00003024410062236841_116_00008799590021118496_116_00002888080436548019_015_00001265302894934183_016_00015247058980774149_116_00003338886116348349_115_00001224744871391589_0,
  117_00035243703985130526_116_00008799590021118496_116_00006625352831508573_015_00001034574607230803_016_00015718379416248212_116_00003338886116348349_115_00001224744871391589_0,
  117_00035243703985130526_116_00008799590021118496_016_00002243696583397816_116_00003698584483549854_016_00016189699851722277_116_00003338886116348349_015_00000816496580927726_0,
  117_00035243703985130526_116_00008799590021118496_117_00030554209915462527_017_00005147146832075141_016_00016503913475371652_116_00003338886116348349_015_00000816496580927726_0,
  117_00035243703985130526_116_00008799590021118496_115_00000829875838149091_016_00009342579604032467_016_00016818127099021027_116_00003338886116348349_115_00001224744871391589_0,
  117_00035243703985130526_116_00009473598877173782_116_00008633439491487378_016_00013656195417617392_016_00017289447534495093_116_00003338886116348349_015_00000816496580927726_1,
  117_00040243307347895485_116_00010147607733229451_116_00008968120601483845_016_00010446062719135587_016_00017603661158144468_116_00003338886116348349_015_00000816496580927726_1,
  117_00040243307347895485_116_00010147607733229451_116_00005230848206523292_016_00005229597084102664_016_00017917874781793846_116_00003338886116348349_015_00000816496580927726_0,
  117_00040243307347895485_116_00010821616589285121_116_00005230848206523292_016_00003524214088034203_015_00001823208840544322_116_00003338886116348349_015_00000816496580927726_0,
  117_00040243307347895485_116_00010821616589285121_117_00016609163665609716_117_00005887684318956068_116_00016959837443286896_116_00003338886116348349_015_00000816496580927726_0,
  117_00040243307347895485_116_00010821616589285121_116_00005844430241516816_016_00006834663433343559_116_00016645623819637518_116_00003338886116348349_015_00000816496580927726_0,
  117_00040243307347895485_116_00010821616589285121_016_00018866191713222369_116_00016137848690166836_116_00016331410195988143_116_00003338886116348349_015_00000816496580927726_0,
  117_00035243703985130526_115_00001149562544534041_016_00006259869903355426_116_00012024866170237025_116_00016017196572338768_116_00003338886116348349_015_00000816496580927726_0,
  117_00040243307347895485_115_00001216963430139608_116_00004059464321535655_017_00013172478578279617_115_00001570298294868939_116_00003338886116348349_015_00000816496580927726_0,
  115_00000452429107106576_116_00012843643157451365_116_00003334321916543309_017_00007153479768626296_116_00015388769325040015_116_00003338886116348349_015_00000816496580927726_0,
  115_00000452429107106576_115_00001216963430139608_116_00007238934866502097_016_00006433396846033335_115_00001507455570139064_116_00003338886116348349_015_00000816496580927726_0,
  117_00040243307347895485_115_00001216963430139608_016_00007542814158341884_116_00011824232876581913_116_00014760342077741262_116_00003338886116348349_115_00001224744871391589_0,
  115_00000452429107106576_115_00001149562544534041_116_00013040074106440867_016_00021480893870166784_114_00000142890216422672_116_00003338886116348349_015_00000816496580927726_0,
  117_00040243307347895485_115_00001149562544534041_016_00012061009143294195_116_00013629932519477927_116_00013974808018617824_116_00003338886116348349_115_00001224744871391589_0,
  117_00040243307347895485_116_00010821616589285121_116_00003557442656540954_117_00012909849596884967_116_00013503487583143758_116_00003338886116348349_015_00000816496580927726_0,
  117_00040243307347895485_116_00010821616589285121_116_00007629396161497976_016_00007737513254791571_116_00013189273959494383_116_00003338886116348349_015_00000816496580927726_0,
  117_00040243307347895485_115_00001149562544534041_116_00007183154681502685_016_00003022630853896422_116_00012875060335845006_116_00003338886116348349_015_00000816496580927726_0,
  117_00040243307347895485_116_00010821616589285121_116_00005732869871517993_017_00018188310919657433_115_00001256084671219563_116_00003338886116348349_015_00000816496580927726_0,
  117_00035243703985130526_116_00010147607733229451_116_00008521879121488555_016_00002220097679275974_116_00012246633088546255_116_00003338886116348349_115_00001224744871391589_0,
  117_00035243703985130526_116_00009473598877173782_016_00011447427108300672_116_00013629932519477927_115_00001177531265307219_116_00003338886116348349_015_00000816496580927726_0,
  117_00040243307347895485_116_00010821616589285121_116_00008131417826492676_016_00008439729782584461_116_00011461099029422814_116_00003338886116348349_015_00000816496580927726_0,
  117_00035243703985130526_116_00010147607733229451_115_00000651379246150975_016_00005430230377757772_115_00001114688540577344_116_00003338886116348349_115_00001224744871391589_0,
  117_00040243307347895485_116_00010821616589285121_016_00016858105053243564_116_00017241331805269953_116_00010675564970299374_116_00003338886116348349_015_00000816496580927726_0,
  117_00035243703985130526_116_00009473598877173782_116_00005900210426516227_117_00022941514279640599_116_00010361351346649998_116_00003338886116348349_015_00000816496580927726_0,
  117_00035243703985130526_116_00010147607733229451_116_00013040074106440867_016_00020678360695546334_116_00010047137723000623_116_00003338886116348349_115_00001224744871391589_0,
  117_00035243703985130526_116_00009473598877173782_117_00022744984015544953_117_00004884517850680491_116_00009575817287526558_016_00029950108064592316_115_00001224744871391589_0,
  117_00035243703985130526_116_00010147607733229451_016_00013009272288284186_116_00013930882459960594_116_00008790283228403118_116_00003338886116348349_015_00000816496580927726_0,
  117_00040243307347895485_116_00010821616589285121_116_00008800780046485611_015_00000252104761975864_116_00008476069604753742_116_00003338886116348349_115_00001224744871391589_0,
  117_00035243703985130526_116_00010147607733229451_116_00007015814126504452_117_00014916182533436123_116_00008004749169279678_116_00003338886116348349_015_00000816496580927726_0,
  117_00040243307347895485_116_00010821616589285121_116_00008410318751489733_016_00013254928830307169_116_00007690535545630302_016_00029950108064592316_115_00001224744871391589_0,
  117_00040243307347895485_116_00009473598877173782_014_00000051442662033672_117_00046014343049978595_116_00006905001486506862_116_00003338886116348349_115_00001224744871391589_0,
  117_00035243703985130526_116_00009473598877173782_117_00010473343315674478_017_00014175645046555194_116_00006433681051032798_016_00029950108064592316_115_00001224744871391589_0,
  117_00035243703985130526_116_00010147607733229451_117_00016051361815615603_016_00005430230377757772_116_00005648146991909357_116_00003338886116348349_015_00000816496580927726_0,
  117_00040243307347895485_116_00010147607733229451_115_00000963748282147678_016_00009743846191342698_116_00005333933368259982_116_00003338886116348349_015_00000816496580927726_0,
  116_00003024410062236841_116_00010147607733229451_016_00017081225793241208_116_00017141015158442399_116_00005019719744610606_116_00003338886116348349_015_00000816496580927726_0,
  117_00035243703985130526_116_00010147607733229451_117_00029996408065468416_016_00004728013849964882_115_00000470550612096123_116_00003338886116348349_015_00000816496580927726_0,
  117_00035243703985130526_116_00010147607733229451_116_00002386058771553318_117_00005887684318956068_116_00004391292497311854_116_00003338886116348349_115_00001224744871391589_0,
  117_00035243703985130526_116_00010821616589285121_116_00003947903951536833_016_00002220097679275974_115_00000391997206183779_116_00003338886116348349_115_00001224744871391589_0,
  117_00040243307347895485_116_00010821616589285121_015_00001769480782823473_116_00017341648452097511_117_00034486516263637257_116_00003338886116348349_115_00001224744871391589_0,
  117_00040243307347895485_116_00010821616589285121_016_00004530684168373677_116_00005905550713756088_117_00029773311908896616_116_00003338886116348349_015_00000816496580927726_0,
  117_00035243703985130526_116_00010147607733229451_116_00007238934866502097_016_00004828330496792433_117_00026631175672402857_116_00003338886116348349_015_00000816496580927726_0,
  117_00035243703985130526_116_00010147607733229451_116_00007517835791499152_016_00009442896250860024_117_00023489039435909095_116_00003338886116348349_115_00001224744871391589_0,
  117_00040243307347895485_116_00010821616589285121_115_00001052996578146736_016_00011348912540583593_117_00018775835081168454_116_00003338886116348349_015_00000816496580927726_0,
  117_00040243307347895485_116_00010821616589285121_118_00004329100157804543_116_00001993201487481394_117_00015633698844674693_116_00003338886116348349_115_00001224744871391589_0,
  117_00040243307347895485_116_00010821616589285121_116_00003501662471541543_116_00007309983769341876_117_00010920494489934053_116_00003338886116348349_115_00001224744871391589_0,
  117_00040243307347895485_115_00001149562544534041_116_00009749043191475603_016_00011850495774721375_118_00062072901351934134_116_00003338886116348349_115_00001224744871391589_0,
  117_00040243307347895485_115_00001149562544534041_017_00024110371383960497_016_00005530547024585329_118_00014940857804527726_116_00003338886116348349_115_00001224744871391589_0,
  115_00000452429107106576_115_00001216963430139608_116_00010641526151466183_014_00000161641115883063_017_00003219118574287868_116_00003338886116348349_015_00000816496580927726_0,
  115_00000452429107106576_115_00001216963430139608_117_00049519472815262355_016_00006132446905550669_017_00006361254810781627_016_00029950108064592316_115_00001224744871391589_0,
  116_00005024251407342256_116_00012843643157451365_116_00016554225761403776_013_00000020979310636029_016_00001421659540201603_116_00003338886116348349_015_00000816496580927726_0,
  115_00000452429107106576_115_00001216963430139608_117_00025533993265515514_116_00005103017539135641_016_00001735873163850979_116_00003338886116348349_015_00000816496580927726_0,
  115_00000452429107106576_115_00001149562544534041_017_00034708606533848635_116_00008614100178100111_016_00002050086787500355_116_00003338886116348349_015_00000816496580927726_0,
  115_00000452429107106576_115_00001216963430139608_016_00001630114548404292_116_00006708083888376544_016_00002364300411149731_116_00003338886116348349_015_00000816496580927726_0,
  115_00000452429107106576_115_00001149562544534041_117_00018282569215592054_116_00001993201487481394_016_00002678514034799107_116_00003338886116348349_115_00001224744871391589_0,
  115_00000452429107106576_115_00001149562544534041_117_00008242135915698029_116_00005905550713756088_016_00003149834470273171_116_00003338886116348349_015_00000816496580927726_0,
  115_00000452429107106576_116_00010821616589285121_018_00023560992341901083_117_00020935181343089515_016_00003464048093922547_116_00003338886116348349_015_00000816496580927726_0,
  117_00040243307347895485_116_00010147607733229451_117_00036132228415403655_015_00000723593002065379_016_00003778261717571923_116_00003338886116348349_115_00001224744871391589_0,
  117_00040243307347895485_116_00010147607733229451_117_00007126532215709803_117_00026954180152742907_016_00004249582153045987_116_00003338886116348349_115_00001224744871391589_0,
  117_00040243307347895485_116_00010147607733229451_016_00018308389863228256_116_00013028032638512588_016_00004720902588520051_116_00003338886116348349_015_00000816496580927726_0,
  117_00040243307347895485_116_00010147607733229451_116_00002888080436548019_017_00012169312110004112_016_00005035116212169427_116_00003338886116348349_015_00000816496580927726_0,
  117_00040243307347895485_116_00010821616589285121_016_00002299476768397227_116_00007410300416169433_016_00005349329835818804_116_00003338886116348349_015_00000816496580927726_0,
  117_00040243307347895485_116_00010147607733229451_116_00011087767631461474_016_00010044796131825364_016_00005663543459468179_116_00003338886116348349_015_00000816496580927726_0,
  117_00040243307347895485_116_00010147607733229451_018_00029139010841842207_016_00001618197798310635_016_00005977757083117555_116_00003338886116348349_015_00000816496580927726_0,
  117_00040243307347895485_116_00010147607733229451_116_00002832300251548608_017_00003140813895523986_016_00006291970706766932_116_00003338886116348349_015_00000816496580927726_0,
  117_00040243307347895485_116_00010147607733229451_015_00001133586673830185_115_00001112201634878902_016_00006606184330416307_116_00003338886116348349_115_00001224744871391589_0,
  115_00000452429107106576_116_00010147607733229451_016_00002968838988390162_116_00005805234066928531_016_00007077504765890371_116_00003338886116348349_115_00001224744871391589_0,
  117_00040243307347895485_116_00009473598877173782_017_00024110371383960497_116_00001190668312860946_016_00007548825201364435_116_00003338886116348349_015_00000816496580927726_0,
  117_00040243307347895485_116_00010147607733229451_116_00002720739881549785_016_00003223264147551537_016_00007863038825013812_116_00003338886116348349_015_00000816496580927726_0,
  117_00040243307347895485_116_00010147607733229451_017_00030803993583889844_117_00042001677176876356_016_00008177252448663187_116_00003338886116348349_115_00001224744871391589_0]

/-- lr/data.csv 2402-2501 -/
def dataCsv24 : List ℕ := [
  117_00040243307347895485_116_00009473598877173782_117_00042825850615333005_015_00001506062847320318_016_00008648572884137251_016_00029950108064592316_115_00001224744871391589_0,
  117_00040243307347895485_116_00009473598877173782_116_00009581702636477369_016_00007637196607964014_016_00009434106943260692_116_00003338886116348349_115_00001224744871391589_0,
  117_00040243307347895485_116_00008799590021118496_115_00001192447040645264_016_00011047962600100927_016_00009905427378734756_116_00003338886116348349_015_00000816496580927726_0,
  117_00040243307347895485_116_00008799590021118496_116_00005063507651525058_016_00011449229187411152_016_00010219641002384132_016_00029950108064592316_115_00001224744871391589_0,
  115_00000452429107106576_116_00008799590021118496_015_00002617339594814524_116_00019749247975958861_016_00011005175061507573_116_00003338886116348349_115_00001224744871391589_0,
  115_00000452429107106576_116_00008799590021118496_117_00022744984015544953_117_00010903516660333884_016_00011476495496981636_116_00003338886116348349_015_00000816496580927726_0,
  115_00000452429107106576_116_00009473598877173782_116_00005677089686518582_016_00001618197798310635_015_00001179070912063101_116_00003338886116348349_015_00000816496580927726_0,
  115_00000452429107106576_116_00009473598877173782_117_00022187182165550842_016_00005129280437275106_016_00012104922744280389_116_00003338886116348349_115_00001224744871391589_0,
  116_00005024251407342256_116_00010821616589285121_116_00010195284671470892_015_00001265302894934183_016_00012576243179754452_116_00003338886116348349_015_00000816496580927726_0,
  115_00000452429107106576_116_00010147607733229451_019_00012489183421365824_016_00006834663433343559_016_00012890456803403827_116_00003338886116348349_015_00000816496580927726_0,
  115_00000452429107106576_116_00010147607733229451_016_00008379516933333053_116_00007911883650307214_016_00013204670427053204_116_00003338886116348349_015_00000816496580927726_0,
  116_00005024251407342256_116_00010147607733229451_017_00011280928834095907_116_00001892884840653836_015_00001351888405070258_116_00003338886116348349_015_00000816496580927726_0,
  115_00000452429107106576_116_00009473598877173782_116_00007294715051501508_016_00006734346786516008_016_00013833097674351955_116_00003338886116348349_015_00000816496580927726_0,
  116_00005024251407342256_116_00010147607733229451_015_00001936821337821707_115_00001704069851161484_016_00014147311298001333_116_00003338886116348349_015_00000816496580927726_0,
  115_00000452429107106576_116_00010147607733229451_115_00000690425375650563_016_00003423897441206646_116_00016959837443286896_116_00003338886116348349_015_00000816496580927726_0,
  115_00000452429107106576_116_00010147607733229451_016_00002689938063393106_117_00044008010113427437_116_00016645623819637518_116_00003338886116348349_115_00001224744871391589_0,
  116_00005024251407342256_116_00010821616589285121_017_00017974551034025257_117_00013913016065160544_116_00016174303384163455_116_00003338886116348349_015_00000816496580927726_0,
  116_00005524211743618752_115_00001149562544534041_017_00020763560283995822_117_00033976345430671806_116_00015860089760514078_116_00003338886116348349_015_00000816496580927726_0,
  116_00005524211743618752_115_00001149562544534041_016_00006761891568350127_116_00005604600773273423_116_00015545876136864702_116_00003338886116348349_015_00000816496580927726_0,
  116_00005524211743618752_115_00001216963430139608_116_00011757129851454409_016_00009242262957204916_116_00015231662513215327_116_00003338886116348349_115_00001224744871391589_0,
  116_00006024172079894964_115_00001216963430139608_117_00049519472815262355_016_00004728013849964882_116_00014760342077741262_016_00029950108064592316_115_00001224744871391589_0,
  116_00005524211743618752_115_00001216963430139608_015_00004714674550792387_116_00025066030257819345_116_00013974808018617824_116_00003338886116348349_015_00000816496580927726_0,
  116_00006024172079894964_115_00001216963430139608_116_00005342408576522114_016_00013455562123962277_116_00013660594394968446_116_00003338886116348349_015_00000816496580927726_0,
  116_00005524211743618752_115_00001216963430139608_013_00000026954318538137_116_00020050197916441532_115_00001334638077131907_116_00003338886116348349_115_00001224744871391589_0,
  116_00005524211743618752_115_00001216963430139608_016_00016132962648251217_115_00001623816533699439_116_00012875060335845006_116_00003338886116348349_015_00000816496580927726_0,
  116_00006024172079894964_116_00012843643157451365_117_00037247832115391877_016_00013555878770789835_115_00001256084671219563_116_00003338886116348349_015_00000816496580927726_0,
  116_00005524211743618752_115_00001216963430139608_116_00009302801711480313_015_00002368786010037302_116_00012246633088546255_116_00003338886116348349_115_00001224744871391589_1,
  116_00005524211743618752_115_00001149562544534041_015_00001763902764323532_115_00001623816533699439_115_00001177531265307219_116_00003338886116348349_015_00000816496580927726_0,
  116_00005024251407342256_115_00001149562544534041_116_00009023900786483257_015_00000723593002065379_116_00011461099029422814_116_00003338886116348349_115_00001224744871391589_0,
  116_00005524211743618752_115_00001149562544534041_116_00005955990611515638_016_00008941313016722243_116_00010989778593948751_116_00003338886116348349_015_00000816496580927726_0,
  116_00005524211743618752_115_00001216963430139608_116_00011366668556458528_016_00007837829901619122_116_00010675564970299374_116_00003338886116348349_115_00001224744871391589_0,
  116_00005524211743618752_115_00001216963430139608_116_00007127374496503274_016_00011348912540583593_115_00001020424453482531_116_00003338886116348349_115_00001224744871391589_0,
  116_00005524211743618752_115_00001216963430139608_117_00016051361815615603_016_00003524214088034203_116_00009732924099351247_116_00003338886116348349_015_00000816496580927726_0,
  116_00005024251407342256_115_00001149562544534041_116_00005453968946520936_016_00004025797322171985_115_00000941871047570187_116_00003338886116348349_015_00000816496580927726_0,
  116_00005024251407342256_115_00001216963430139608_115_00001008372430147207_016_00002721680913413756_116_00009104496852052494_116_00003338886116348349_115_00001224744871391589_0,
  116_00005524211743618752_115_00001216963430139608_016_00008212176378334819_116_00009617266646375675_115_00000863317641657843_116_00003338886116348349_015_00000816496580927726_0,
  116_00005024251407342256_115_00001216963430139608_016_00006873451938348949_116_00009617266646375675_116_00008318962792929054_016_00029950108064592316_115_00001224744871391589_0,
  115_00000452429107106576_115_00001149562544534041_116_00006290671721512106_018_00011344809589729025_116_00007533428733805614_116_00003338886116348349_015_00000816496580927726_0,
  115_00000452429107106576_116_00010821616589285121_116_00011645569481455584_016_00013656195417617392_116_00007219215110156237_116_00003338886116348349_115_00001224744871391589_0,
  115_00000452429107106576_116_00010821616589285121_016_00008602637673330699_116_00008413466884444997_116_00006747894674682174_116_00003338886116348349_015_00000816496580927726_0,
  115_00000452429107106576_116_00010821616589285121_116_00006290671721512106_015_00000793814654844668_116_00006433681051032798_116_00003338886116348349_015_00000816496580927726_0,
  115_00000452429107106576_116_00010147607733229451_016_00007654374528340707_116_00009015366765410335_116_00006119467427383422_116_00003338886116348349_015_00000816496580927726_0,
  115_00000452429107106576_116_00010821616589285121_116_00011534009111456762_016_00011750179127893825_116_00005805253803734046_116_00003338886116348349_115_00001224744871391589_0,
  115_00000452429107106576_116_00010147607733229451_016_00006036749163357781_116_00005002700892308083_116_00005333933368259982_116_00003338886116348349_015_00000816496580927726_0,
  117_00040243307347895485_116_00009473598877173782_116_00015159721136418494_016_00028302425854440614_116_00005019719744610606_116_00003338886116348349_015_00000816496580927726_1,
  117_00040243307347895485_116_00008799590021118496_116_00009135461156482079_016_00015160945120030738_115_00000470550612096123_016_00029950108064592316_115_00001224744871391589_0,
  117_00035243703985130526_116_00009473598877173782_115_00000651379246150975_016_00008941313016722243_115_00000391997206183779_116_00003338886116348349_015_00000816496580927726_0,
  117_00035243703985130526_116_00008799590021118496_116_00007294715051501508_016_00008740679723067134_117_00036057584381884134_116_00003338886116348349_015_00000816496580927726_0,
  116_00003024410062236841_116_00007451572309007539_116_00005509749131520348_015_00000252104761975864_117_00032915448145390375_116_00003338886116348349_015_00000816496580927726_0,
  117_00035243703985130526_116_00008125581165062826_016_00013009272288284186_116_00014833732281408603_117_00029773311908896616_116_00003338886116348349_015_00000816496580927726_0,
  117_00040243307347895485_116_00008799590021118496_116_00002609179511550963_117_00021938347811365091_117_00026631175672402857_116_00003338886116348349_015_00000816496580927726_0,
  117_00040243307347895485_116_00008799590021118496_016_00006204089718356014_116_00009516949999548118_117_00023489039435909095_116_00003338886116348349_015_00000816496580927726_0,
  115_00000452429107106576_116_00009473598877173782_015_00004407883533295625_115_00002546729684512957_117_00020346903199415334_116_00003338886116348349_115_00001224744871391589_0,
  116_00005024251407342256_116_00009473598877173782_016_00006092529348357192_116_00009216000059065448_117_00015633698844674693_116_00003338886116348349_015_00000816496580927726_0,
  116_00005024251407342256_116_00009473598877173782_016_00006371430273354248_116_00008313150237617443_117_00012491562608180934_116_00003338886116348349_015_00000816496580927726_0,
  116_00005024251407342256_116_00009473598877173782_016_00022715024478181745_116_00017742915039407734_117_00009349426371687174_116_00003338886116348349_015_00000816496580927726_0,
  115_00000452429107106576_116_00009473598877173782_017_00009049721434119458_117_00033976345430671806_118_00062072901351934134_116_00003338886116348349_015_00000816496580927726_0,
  116_00005024251407342256_116_00009473598877173782_016_00006817671753349538_116_00007811567003479657_117_00003065153898699653_116_00003338886116348349_015_00000816496580927726_0,
  116_00005024251407342256_116_00009473598877173782_116_00005844430241516816_016_00005931813611895553_019_00007698233779410749_116_00003338886116348349_015_00000816496580927726_0,
  116_00005024251407342256_116_00009473598877173782_116_00013486315586436157_016_00014258095298582731_017_00003219118574287868_116_00003338886116348349_015_00000816496580927726_0,
  116_00005024251407342256_116_00009473598877173782_116_00004059464321535655_016_00006433396846033335_017_00006361254810781627_116_00003338886116348349_015_00000816496580927726_0,
  116_00005524211743618752_116_00009473598877173782_117_00012146748865656816_118_00018750184458538297_017_00009503391047275388_116_00003338886116348349_115_00001224744871391589_0,
  116_00005524211743618752_116_00010147607733229451_015_00001133586673830185_116_00005504284126445864_016_00001421659540201603_116_00003338886116348349_015_00000816496580927726_0,
  116_00005524211743618752_116_00010147607733229451_016_00002299476768397227_117_00008897183723782728_016_00001735873163850979_116_00003338886116348349_015_00000816496580927726_0,
  116_00005524211743618752_116_00010147607733229451_117_00002664117415756904_016_00002922314207068864_016_00002050086787500355_116_00003338886116348349_115_00001224744871391589_0,
  116_00005524211743618752_116_00009473598877173782_117_00032227615465444864_017_00007153479768626296_016_00002521407222974419_116_00003338886116348349_015_00000816496580927726_0,
  116_00005024251407342256_116_00009473598877173782_116_00006123331166513871_117_00022941514279640599_016_00002835620846623795_116_00003338886116348349_015_00000816496580927726_0,
  116_00005524211743618752_116_00009473598877173782_017_00019647956584007595_116_00006507450594721428_016_00003149834470273171_116_00003338886116348349_115_00001224744871391589_0,
  116_00005524211743618752_116_00009473598877173782_117_00008242135915698029_017_00004143980363799563_017_00036211549057472353_116_00003338886116348349_115_00001224744871391589_0,
  116_00005024251407342256_116_00008799590021118496_116_00001772476736559794_117_00024947847216191754_016_00004092475341221299_116_00003338886116348349_015_00000816496580927726_0,
  116_00005524211743618752_116_00010147607733229451_116_00004003684136536244_016_00004728013849964882_017_00044066889648706753_116_00003338886116348349_015_00000816496580927726_0,
  116_00005524211743618752_116_00010821616589285121_115_00001326319484643851_016_00011148279246928485_016_00004720902588520051_116_00003338886116348349_015_00000816496580927726_0,
  116_00005524211743618752_116_00010147607733229451_116_00006123331166513871_016_00015160945120030738_016_00005035116212169427_116_00003338886116348349_015_00000816496580927726_0,
  116_00005524211743618752_116_00010147607733229451_017_00009049721434119458_117_00023944680747916175_016_00005349329835818804_116_00003338886116348349_115_00001224744871391589_0,
  116_00005524211743618752_116_00010147607733229451_116_00001995597476557439_017_00006150313300350718_016_00005820650271292868_116_00003338886116348349_015_00000816496580927726_0,
  116_00005524211743618752_116_00010147607733229451_117_00044499256165315343_015_00000312294750072398_016_00006134863894942243_116_00003338886116348349_015_00000816496580927726_0,
  116_00005524211743618752_116_00010821616589285121_116_00005007727466525647_017_00024207309729310825_016_00006449077518591619_016_00029950108064592316_115_00001224744871391589_0,
  116_00005524211743618752_116_00010147607733229451_116_00008466098936489144_015_00001736791135023697_015_00000723461157771506_116_00003338886116348349_015_00000816496580927726_0,
  116_00005524211743618752_116_00010147607733229451_116_00004617266171529768_016_00010044796131825364_016_00007548825201364435_116_00003338886116348349_115_00001224744871391589_0,
  116_00005024251407342256_116_00010147607733229451_016_00003638201208383097_115_00000530365083279075_016_00008020145636838499_116_00003338886116348349_015_00000816496580927726_0,
  116_00005024251407342256_116_00009473598877173782_015_00001088962525830656_116_00007610933709824549_016_00008334359260487876_116_00003338886116348349_015_00000816496580927726_0,
  116_00005024251407342256_116_00009473598877173782_116_00008968120601483845_016_00007837829901619122_016_00008648572884137251_116_00003338886116348349_015_00000816496580927726_0,
  116_00005524211743618752_116_00008799590021118496_117_00019398172915580278_017_00018188310919657433_016_00008962786507786628_116_00003338886116348349_015_00000816496580927726_0,
  116_00005524211743618752_116_00008799590021118496_116_00007629396161497976_016_00009844162838170248_016_00009277000131436004_116_00003338886116348349_115_00001224744871391589_0,
  116_00006024172079894964_116_00009473598877173782_117_00008242135915698029_117_00022941514279640599_016_00009748320566910068_016_00029950108064592316_115_00001224744871391589_0,
  116_00006024172079894964_116_00009473598877173782_017_00030246191733895733_117_00045011176581703016_016_00010533854626033508_116_00003338886116348349_015_00000816496580927726_0,
  116_00005524211743618752_116_00008799590021118496_016_00013009272288284186_114_00000116235995829268_016_00010848068249682883_116_00003338886116348349_115_00001224744871391589_0,
  116_00005524211743618752_116_00009473598877173782_016_00004698024723371911_116_00009015366765410335_016_00011319388685156948_016_00029950108064592316_115_00001224744871391589_0,
  116_00005524211743618752_116_00008799590021118496_116_00010195284671470892_015_00001074701265961826_016_00012104922744280389_116_00003338886116348349_015_00000816496580927726_0,
  116_00005524211743618752_116_00008799590021118496_116_00002162938031555673_016_00001618197798310635_016_00012419136367929764_016_00029950108064592316_115_00001224744871391589_0,
  115_00000452429107106576_116_00008125581165062826_017_00015185541784054696_015_00000663403013968845_016_00013204670427053204_016_00029950108064592316_115_00001224744871391589_0,
  115_00000452429107106576_116_00007451572309007539_116_00005230848206523292_016_00003423897441206646_016_00013990204486176645_116_00003338886116348349_015_00000816496580927726_0,
  116_00005024251407342256_116_00008125581165062826_114_00000087449998614862_015_00001857171111216765_015_00001430441810982602_016_00029950108064592316_115_00001224744871391589_0,
  116_00005024251407342256_116_00008125581165062826_116_00006736913201507395_016_00005731180318240445_015_00001508995216894946_116_00003338886116348349_115_00001224744871391589_0,
  115_00000452429107106576_116_00008125581165062826_116_00011701349666454997_016_00013656195417617392_016_00015561272604423524_116_00003338886116348349_015_00000816496580927726_1,
  115_00000452429107106576_116_00008125581165062826_116_00002664959696550374_017_00010162979173452956_014_00000158754862280729_116_00003338886116348349_115_00001224744871391589_0,
  117_00040243307347895485_116_00007451572309007539_017_00019090154734013484_116_00002595101368446733_016_00016346806663546964_116_00003338886116348349_115_00001224744871391589_0,
  117_00040243307347895485_116_00007451572309007539_117_00009915541465680366_017_00023204143261035248_016_00016818127099021027_116_00003338886116348349_115_00001224744871391589_0,
  115_00000452429107106576_116_00007451572309007539_116_00004003684136536244_015_00000723593002065379_016_00017289447534495093_116_00003338886116348349_015_00000816496580927726_0,
  115_00000452429107106576_116_00007451572309007539_115_00001192447040645264_016_00008439729782584461_016_00017603661158144468_116_00003338886116348349_115_00001224744871391589_0]

/-- lr/data.csv 2502-2601 -/
def dataCsv25 : List ℕ := [
  115_00000452429107106576_116_00007451572309007539_017_00043633436133754433_116_00007711250356652106_016_00018074981593618533_116_00003338886116348349_015_00000816496580927726_0,
  115_00000452429107106576_116_00007451572309007539_116_00003501662471541543_016_00002721680913413756_016_00018389195217267909_116_00003338886116348349_115_00001224744871391589_0,
  117_00040243307347895485_115_00000677756345295187_117_00013262352565645041_016_00008941313016722243_016_00018860515652741972_116_00003338886116348349_015_00000816496580927726_1,
  117_00040243307347895485_115_00000677756345295187_116_00007294715051501508_015_00000723593002065379_116_00016959837443286896_116_00003338886116348349_015_00000816496580927726_0,
  117_00040243307347895485_114_00000061035545968962_116_00003947903951536833_016_00005630863671412888_116_00016645623819637518_116_00003338886116348349_015_00000816496580927726_0,
  117_00040243307347895485_114_00000061035545968962_116_00008466098936489144_016_00008740679723067134_116_00016331410195988143_116_00003338886116348349_015_00000816496580927726_0,
  117_00040243307347895485_114_00000061035545968962_116_00001995597476557439_115_00000530365083279075_116_00016017196572338768_116_00003338886116348349_115_00001224744871391589_0,
  117_00040243307347895485_114_00000061035545968962_116_00007183154681502685_016_00007135613373826232_116_00015545876136864702_016_00029950108064592316_115_00001224744871391589_0,
  116_00005024251407342256_116_00007451572309007539_017_00042517832433766206_116_00009416633352720559_116_00014760342077741262_116_00003338886116348349_015_00000816496580927726_0,
  116_00005024251407342256_116_00007451572309007539_117_00015493559965621492_117_00040998510708600777_116_00014446128454091887_116_00003338886116348349_015_00000816496580927726_0,
  115_00000452429107106576_115_00000677756345295187_116_00007462055606499741_016_00013856828711272502_116_00014131914830442511_116_00003338886116348349_015_00000816496580927726_0,
  116_00005024251407342256_116_00007451572309007539_117_00007126532215709803_017_00011166145641728534_116_00013817701206793134_116_00003338886116348349_115_00001224744871391589_0,
  116_00005524211743618752_116_00008125581165062826_117_00004895324815733354_117_00016922515469987276_115_00001334638077131907_116_00003338886116348349_015_00000816496580927726_0,
  116_00005024251407342256_116_00008799590021118496_017_00024668173233954607_116_00007510617062996991_116_00013032167147669695_116_00003338886116348349_015_00000816496580927726_0,
  116_00005524211743618752_116_00009473598877173782_015_00002957598723310933_116_00021354314325199764_116_00012717953524020318_116_00003338886116348349_015_00000816496580927726_0,
  116_00006024172079894964_116_00010147607733229451_116_00002720739881549785_116_00005002700892308083_116_00012403739900370943_116_00003338886116348349_015_00000816496580927726_0,
  116_00006024172079894964_116_00010147607733229451_015_00001100118562830538_116_00011021699701961463_116_00012089526276721567_116_00003338886116348349_015_00000816496580927726_0,
  116_00006024172079894964_116_00010147607733229451_116_00008019857456493854_016_00004427063909482209_115_00001177531265307219_116_00003338886116348349_015_00000816496580927726_0,
  116_00005524211743618752_116_00009473598877173782_116_00006346451906511517_015_00000964352954451514_116_00011461099029422814_116_00003338886116348349_115_00001224744871391589_0,
  116_00006024172079894964_116_00009473598877173782_014_00000051442662033672_116_00007610933709824549_116_00010989778593948751_116_00003338886116348349_015_00000816496580927726_0,
  116_00006024172079894964_116_00009473598877173782_118_00021063155657627917_017_00012169312110004112_116_00010675564970299374_116_00003338886116348349_015_00000816496580927726_0,
  116_00006024172079894964_116_00009473598877173782_016_00002522597508394872_116_00005604600773273423_116_00010361351346649998_116_00003338886116348349_015_00000816496580927726_0,
  116_00006024172079894964_116_00008799590021118496_018_00023560992341901083_117_00017925681938262783_116_00010047137723000623_116_00003338886116348349_115_00001224744871391589_0,
  116_00006024172079894964_116_00008799590021118496_016_00005367386943364846_117_00048020675986529676_116_00009575817287526558_116_00003338886116348349_015_00000816496580927726_0,
  116_00006024172079894964_116_00008799590021118496_116_00005175068021523881_016_00005530547024585329_116_00009261603663877183_116_00003338886116348349_115_00001224744871391589_0,
  116_00006024172079894964_116_00009473598877173782_015_00000330352009838663_117_00049023842454805255_116_00008790283228403118_116_00003338886116348349_115_00001224744871391589_0,
  116_00006024172079894964_116_00009473598877173782_117_00021071578465562615_116_00005002700892308083_116_00008318962792929054_116_00003338886116348349_015_00000816496580927726_0,
  116_00006024172079894964_116_00010147607733229451_117_00049519472815262355_016_00010847329306445812_116_00008004749169279678_116_00003338886116348349_015_00000816496580927726_0,
  116_00006024172079894964_116_00009473598877173782_016_00010666504518308915_116_00014131515753615709_116_00007690535545630302_116_00003338886116348349_015_00000816496580927726_0,
  116_00006024172079894964_116_00009473598877173782_017_00017974551034025257_116_00006306817301066312_116_00007376321921980926_116_00003338886116348349_115_00001224744871391589_0,
  116_00005524211743618752_116_00008799590021118496_115_00000562130950151917_016_00011750179127893825_116_00006905001486506862_116_00003338886116348349_015_00000816496580927726_0,
  116_00006024172079894964_116_00010147607733229451_117_00016051361815615603_117_00012909849596884967_116_00006590787862857486_116_00003338886116348349_115_00001224744871391589_0,
  116_00005524211743618752_116_00008799590021118496_116_00008354538566490322_015_00000492864714361999_116_00006119467427383422_116_00003338886116348349_015_00000816496580927726_0,
  116_00006024172079894964_116_00008799590021118496_116_00002720739881549785_115_00000640713394789387_116_00005805253803734046_116_00003338886116348349_015_00000816496580927726_0,
  116_00005524211743618752_116_00008799590021118496_016_00010610724333309502_116_00013429299225822813_115_00000549104018008467_116_00003338886116348349_015_00000816496580927726_0,
  116_00005024251407342256_116_00008125581165062826_116_00002441838956552729_115_00000159193490017117_116_00005176826556435293_116_00003338886116348349_015_00000816496580927726_0,
  116_00005524211743618752_116_00008125581165062826_116_00014378798546426736_016_00013957145358100058_117_00048626129327859174_116_00003338886116348349_015_00000816496580927726_0,
  116_00005524211743618752_116_00008799590021118496_116_00010362625226469127_016_00008138779842101795_117_00045483993091365416_016_00029950108064592316_115_00001224744871391589_0,
  115_00000452429107106576_116_00008125581165062826_116_00006123331166513871_015_00001014511277865292_117_00037628652500131016_116_00003338886116348349_015_00000816496580927726_0,
  115_00000452429107106576_116_00008125581165062826_116_00007015814126504452_017_00021197810324484165_117_00034486516263637257_116_00003338886116348349_015_00000816496580927726_0,
  115_00000452429107106576_116_00008125581165062826_117_00020513776615568505_117_00016922515469987276_115_00000313443800271435_116_00003338886116348349_015_00000816496580927726_0,
  115_00000452429107106576_116_00008125581165062826_017_00007934117734131232_116_00007410300416169433_117_00028202243790649734_016_00029950108064592316_115_00001224744871391589_0,
  117_00040243307347895485_116_00007451572309007539_016_00009662461188319512_116_00013629932519477927_117_00020346903199415334_016_00029950108064592316_115_00001224744871391589_0,
  117_00035243703985130526_115_00000677756345295187_016_00013790194878275945_115_00001653911527747706_117_00012491562608180934_116_00003338886116348349_015_00000816496580927726_0,
  117_00040243307347895485_115_00000677756345295187_014_00000229939254031788_116_00018645764860855742_117_00009349426371687174_116_00003338886116348349_015_00000816496580927726_0,
  117_00040243307347895485_115_00000677756345295187_018_00012404955342018832_116_00003698584483549854_118_00062072901351934134_116_00003338886116348349_115_00001224744871391589_0,
  117_00040243307347895485_114_00000061035545968962_017_00036939813933825083_115_00000570491742010098_118_00014940857804527726_116_00003338886116348349_015_00000816496580927726_0,
  117_00040243307347895485_114_00000061035545968962_017_00021879163983984046_116_00001892884840653836_018_00016480504560409875_116_00003338886116348349_015_00000816496580927726_0,
  117_00035243703985130526_116_00005429545740840913_116_00005509749131520348_117_00024947847216191754_017_00004790186692534748_116_00003338886116348349_115_00001224744871391589_0,
  116_00003024410062236841_116_00005429545740840913_116_00002776520066549197_017_00023204143261035248_017_00009503391047275388_116_00003338886116348349_015_00000816496580927726_0,
  116_00003024410062236841_117_00047555368847852436_115_00000963748282147678_016_00008439729782584461_017_00012645527283769148_116_00003338886116348349_015_00000816496580927726_0,
  117_00035243703985130526_116_00005429545740840913_018_00012404955342018832_117_00027957346621018414_016_00001578766352026291_116_00003338886116348349_015_00000816496580927726_0,
  117_00035243703985130526_114_00000061035545968962_016_00000737631588413712_017_00007153479768626296_017_00018929799756756668_016_00029950108064592316_115_00001224744871391589_0,
  117_00035243703985130526_114_00000061035545968962_117_00036690030265397766_017_00003140813895523986_016_00002678514034799107_116_00003338886116348349_015_00000816496580927726_0,
  117_00035243703985130526_114_00000061035545968962_117_00004337522965739242_117_00020935181343089515_016_00002992727658448483_116_00003338886116348349_015_00000816496580927726_0,
  117_00035243703985130526_116_00005429545740840913_117_00015493559965621492_117_00027957346621018414_016_00003306941282097859_116_00003338886116348349_015_00000816496580927726_0,
  117_00035243703985130526_114_00000061035545968962_116_00005007727466525647_015_00000793814654844668_017_00036211549057472353_116_00003338886116348349_115_00001224744871391589_0,
  116_00003024410062236841_114_00000061035545968962_116_00005509749131520348_016_00010044796131825364_016_00004092475341221299_116_00003338886116348349_115_00001224744871391589_0,
  117_00040243307347895485_115_00000677756345295187_016_00019089312453220013_116_00016137848690166836_016_00004563795776695363_116_00003338886116348349_115_00001224744871391589_0,
  117_00035243703985130526_115_00000677756345295187_116_00005119287836524469_016_00010446062719135587_016_00005035116212169427_116_00003338886116348349_015_00000816496580927726_0,
  116_00003024410062236841_114_00000061035545968962_115_00001186869022145323_015_00002208279375113212_016_00005349329835818804_116_00003338886116348349_115_00001224744871391589_0,
  116_00003024410062236841_116_00005429545740840913_016_00003805541763381331_116_00008313150237617443_016_00005820650271292868_116_00003338886116348349_015_00000816496580927726_0,
  117_00035243703985130526_114_00000061035545968962_017_00006818514034143008_117_00008897183723782728_016_00006134863894942243_116_00003338886116348349_015_00000816496580927726_0,
  117_00035243703985130526_114_00000061035545968962_116_00002386058771553318_117_00027957346621018414_016_00006449077518591619_116_00003338886116348349_015_00000816496580927726_0,
  117_00035243703985130526_114_00000061035545968962_117_00025533993265515514_116_00001993201487481394_016_00006763291142240996_116_00003338886116348349_015_00000816496580927726_0,
  116_00003024410062236841_114_00000061035545968962_116_00013095854291440279_016_00010546379365963146_016_00007077504765890371_116_00003338886116348349_015_00000816496580927726_0,
  117_00035243703985130526_115_00000677756345295187_116_00006625352831508573_016_00001618197798310635_016_00007391718389539748_116_00003338886116348349_115_00001224744871391589_0,
  116_00003024410062236841_114_00000061035545968962_015_00001267459117828772_116_00015435632162373938_016_00007863038825013812_116_00003338886116348349_015_00000816496580927726_0,
  117_00020244893896838492_116_00005429545740840913_117_00049519472815262355_015_00000312294750072398_016_00008177252448663187_116_00003338886116348349_015_00000816496580927726_0,
  116_00002524449725960345_116_00005429545740840913_016_00018587290788225312_116_00017441965098925065_016_00008491466072312563_016_00029950108064592316_115_00001224744871391589_0,
  117_00020244893896838492_116_00005429545740840913_016_00009718241373318923_115_00001352961587265037_016_00009277000131436004_116_00003338886116348349_015_00000816496580927726_0,
  116_00002524449725960345_116_00005429545740840913_117_00023302785865539066_016_00000915981270517738_016_00009591213755085379_116_00003338886116348349_115_00001224744871391589_0,
  116_00003024410062236841_114_00000061035545968962_116_00010418405411468539_016_00004728013849964882_016_00010062534190559445_116_00003338886116348349_115_00001224744871391589_0,
  116_00002524449725960345_116_00005429545740840913_117_00022187182165550842_017_00015178811514830773_016_00010533854626033508_116_00003338886116348349_015_00000816496580927726_0,
  116_00002524449725960345_117_00047555368847852436_015_00002416530928816644_115_00002075241444423442_016_00010848068249682883_116_00003338886116348349_015_00000816496580927726_0,
  116_00002524449725960345_117_00047555368847852436_115_00000651379246150975_016_00009242262957204916_015_00001116228187333226_116_00003338886116348349_015_00000816496580927726_0,
  116_00002524449725960345_117_00047555368847852436_117_00008799937765692141_017_00015178811514830773_016_00011476495496981636_116_00003338886116348349_015_00000816496580927726_0,
  116_00002524449725960345_116_00004081528028729957_017_00013512136234072358_017_00015178811514830773_015_00001179070912063101_116_00003338886116348349_015_00000816496580927726_0,
  116_00003024410062236841_117_00047555368847852436_116_00008242978196491499_015_00000663403013968845_016_00012104922744280389_116_00003338886116348349_015_00000816496580927726_0,
  117_00035243703985130526_114_00000061035545968962_016_00014292216543270646_116_00015335315515546384_016_00012419136367929764_116_00003338886116348349_015_00000816496580927726_0,
  117_00035243703985130526_114_00000061035545968962_116_00013709436326433802_015_00001375651206444495_015_00001273334999157914_116_00003338886116348349_015_00000816496580927726_0,
  117_00040243307347895485_114_00000061035545968962_116_00010808866706464417_015_00002077867734237389_016_00013047563615228517_116_00003338886116348349_015_00000816496580927726_1,
  117_00040243307347895485_115_00000677756345295187_017_00042517832433766206_116_00006306817301066312_016_00013361777238877892_116_00003338886116348349_015_00000816496580927726_0,
  117_00040243307347895485_116_00007451572309007539_115_00001097620726146265_016_00010847329306445812_016_00013675990862527267_116_00003338886116348349_015_00000816496580927726_0,
  115_00000452429107106576_116_00008125581165062826_117_00020513776615568505_016_00006734346786516008_016_00013990204486176645_116_00003338886116348349_015_00000816496580927726_0,
  116_00005024251407342256_116_00008799590021118496_016_00004530684168373677_117_00046014343049978595_015_00001430441810982602_116_00003338886116348349_115_00001224744871391589_0,
  116_00005024251407342256_116_00008799590021118496_118_00009907118657745668_017_00028219975602413067_016_00014775738545300083_116_00003338886116348349_015_00000816496580927726_0,
  116_00005024251407342256_116_00008799590021118496_015_00003956064034800394_116_00023260330614923332_015_00001508995216894946_116_00003338886116348349_015_00000816496580927726_0,
  116_00005024251407342256_116_00008799590021118496_016_00009327780078323045_116_00011422966289271685_016_00015404165792598836_116_00003338886116348349_015_00000816496580927726_0,
  116_00005024251407342256_116_00008799590021118496_016_00039672200718002766_116_00023460963908578445_016_00015718379416248212_116_00003338886116348349_015_00000816496580927726_0,
  116_00005024251407342256_116_00008799590021118496_116_00007964077271494443_016_00008640363076239577_116_00016959837443286896_116_00003338886116348349_015_00000816496580927726_0,
  116_00005524211743618752_116_00009473598877173782_117_00009357739615686254_016_00006433396846033335_116_00016645623819637518_116_00003338886116348349_015_00000816496580927726_0,
  116_00005524211743618752_116_00009473598877173782_019_00012489183421365824_016_00005430230377757772_116_00016331410195988143_116_00003338886116348349_015_00000816496580927726_0,
  116_00005524211743618752_116_00010147607733229451_115_00000690425375650563_016_00014057462004927617_116_00016017196572338768_016_00029950108064592316_115_00001224744871391589_0,
  116_00006024172079894964_116_00010147607733229451_116_00005175068021523881_117_00029963679557569567_116_00015231662513215327_116_00003338886116348349_015_00000816496580927726_0,
  116_00006024172079894964_116_00009473598877173782_117_00029438606215474306_017_00011166145641728534_115_00001491744888956595_116_00003338886116348349_115_00001224744871391589_0,
  116_00005024251407342256_116_00008799590021118496_116_00006290671721512106_117_00013913016065160544_116_00014446128454091887_116_00003338886116348349_015_00000816496580927726_0,
  116_00005024251407342256_116_00008799590021118496_116_00005007727466525647_117_00010903516660333884_116_00014131914830442511_116_00003338886116348349_015_00000816496580927726_0,
  115_00000452429107106576_116_00008125581165062826_116_00012203371331449697_015_00002760020932664772_116_00013817701206793134_116_00003338886116348349_015_00000816496580927726_1,
  117_00040243307347895485_116_00007451572309007539_116_00005119287836524469_117_00003881351382404913_116_00013503487583143758_116_00003338886116348349_115_00001224744871391589_0]

/-- lr/data.csv 2602-2701 -/
def dataCsv26 : List ℕ := [
  117_00035243703985130526_115_00000677756345295187_115_00000651379246150975_016_00007336246667481341_116_00013032167147669695_116_00003338886116348349_015_00000816496580927726_0,
  117_00035243703985130526_114_00000061035545968962_116_00007796736716496209_016_00012151445715204048_116_00012717953524020318_116_00003338886116348349_015_00000816496580927726_0,
  116_00003024410062236841_116_00005429545740840913_116_00006234891536512694_017_00015178811514830773_116_00012403739900370943_116_00003338886116348349_015_00000816496580927726_0,
  117_00035243703985130526_116_00005429545740840913_115_00001142244874145794_016_00006333080199205777_116_00012089526276721567_116_00003338886116348349_115_00001224744871391589_0,
  117_00035243703985130526_114_00000061035545968962_116_00008577659306487967_016_00005630863671412888_116_00011618205841247502_116_00003338886116348349_115_00001224744871391589_0,
  116_00003024410062236841_116_00005429545740840913_016_00000737631588413712_116_00002595101368446733_115_00001114688540577344_116_00003338886116348349_015_00000816496580927726_0,
  116_00003024410062236841_117_00047555368847852436_117_00002664117415756904_117_00024947847216191754_116_00010832671782124061_016_00029950108064592316_115_00001224744871391589_0,
  116_00003024410062236841_117_00047555368847852436_116_00005063507651525058_016_00008640363076239577_116_00010047137723000623_116_00003338886116348349_015_00000816496580927726_0,
  116_00002524449725960345_117_00047555368847852436_116_00007238934866502097_016_00004728013849964882_116_00009732924099351247_116_00003338886116348349_015_00000816496580927726_0,
  116_00003024410062236841_116_00005429545740840913_016_00004586464353373088_116_00005504284126445864_115_00000941871047570187_116_00003338886116348349_015_00000816496580927726_0,
  116_00003024410062236841_114_00000061035545968962_017_00004587306634166558_016_00000915981270517738_116_00009104496852052494_016_00029950108064592316_115_00001224744871391589_0,
  116_00003024410062236841_114_00000061035545968962_016_00023328606513175267_116_00017943548333062846_116_00008318962792929054_116_00003338886116348349_015_00000816496580927726_0,
  116_00003024410062236841_114_00000061035545968962_015_00004921061235290209_116_00025868563432439795_116_00008004749169279678_116_00003338886116348349_015_00000816496580927726_0,
  117_00035243703985130526_114_00000061035545968962_017_00017974551034025257_117_00016922515469987276_116_00007690535545630302_116_00003338886116348349_115_00001224744871391589_0,
  117_00035243703985130526_114_00000061035545968962_016_00005311606758365435_117_00031970012494120725_116_00007219215110156237_116_00003338886116348349_015_00000816496580927726_0,
  117_00035243703985130526_115_00000677756345295187_117_00012704550715650928_117_00012909849596884967_116_00006905001486506862_116_00003338886116348349_015_00000816496580927726_0,
  116_00003024410062236841_114_00000061035545968962_116_00018506532236383169_016_00026597042858372157_116_00006590787862857486_116_00003338886116348349_015_00000816496580927726_0,
  116_00003024410062236841_114_00000061035545968962_015_00000731969341834424_117_00040998510708600777_115_00000627657423920811_116_00003338886116348349_015_00000816496580927726_0,
  116_00003024410062236841_114_00000061035545968962_117_00043383652465327116_016_00008640363076239577_116_00005962360615558734_116_00003338886116348349_115_00001224744871391589_0,
  116_00003024410062236841_116_00005429545740840913_017_00016858947334037033_017_00008156646236901802_115_00000549104018008467_116_00003338886116348349_015_00000816496580927726_0,
  116_00003024410062236841_116_00005429545740840913_016_00000960752328411357_117_00043004843645151863_116_00005176826556435293_116_00003338886116348349_015_00000816496580927726_0,
  116_00002524449725960345_117_00047555368847852436_117_00018282569215592054_017_00015178811514830773_117_00048626129327859174_116_00003338886116348349_115_00001224744871391589_0,
  117_00020244893896838492_116_00004081528028729957_016_00005757848238360724_116_00009717583293203229_116_00004391292497311854_116_00003338886116348349_115_00001224744871391589_0,
  117_00020244893896838492_116_00004081528028729957_116_00014267238176427914_016_00022183110397959678_115_00000391997206183779_116_00003338886116348349_115_00001224744871391589_0,
  117_00015245290534076375_116_00003407519172674287_116_00009135461156482079_016_00006834663433343559_117_00034486516263637257_016_00029950108064592316_115_00001224744871391589_0,
  117_00015245290534076375_116_00004081528028729957_116_00007796736716496209_118_00008718519775782523_117_00026631175672402857_116_00003338886116348349_015_00000816496580927726_0,
  117_00015245290534076375_116_00004081528028729957_016_00006204089718356014_115_00001021916652734101_117_00023489039435909095_116_00003338886116348349_015_00000816496580927726_0,
  117_00010245687171311416_117_00027335103166186175_116_00010753086521465005_016_00013254928830307169_117_00020346903199415334_116_00003338886116348349_115_00001224744871391589_0,
  117_00005246083808549298_117_00027335103166186175_116_00007183154681502685_016_00011248595893756042_117_00015633698844674693_016_00029950108064592316_115_00001224744871391589_0,
  118_00002464804457843392_117_00020595014605633308_016_00002634157878393695_117_00021938347811365091_117_00007778358253440293_116_00003338886116348349_015_00000816496580927726_0,
  118_00002464804457843392_116_00001385492604507661_116_00009302801711480313_117_00003881351382404913_118_00046362220169465326_116_00003338886116348349_015_00000816496580927726_0,
  118_00002464804457843392_117_00020595014605633308_117_00005453126665727467_017_00024207309729310825_118_00014940857804527726_016_00029950108064592316_115_00001224744871391589_0,
  118_00002464804457843392_117_00020595014605633308_016_00006315650088354837_116_00011422966289271685_017_00006361254810781627_116_00003338886116348349_115_00001224744871391589_0,
  016_00000475312291698062_116_00001385492604507661_117_00003779721115745129_118_00018750184458538297_017_00011074459165522269_116_00003338886116348349_015_00000816496580927726_0,
  118_00002464804457843392_117_00020595014605633308_017_00008491919584125346_116_00008012200297134773_016_00001421659540201603_116_00003338886116348349_015_00000816496580927726_0,
  117_00005246083808549298_117_00027335103166186175_117_00042825850615333005_016_00011047962600100927_016_00001735873163850979_016_00029950108064592316_115_00001224744871391589_0,
  117_00005246083808549298_117_00027335103166186175_115_00001588486354141084_016_00021380577223339223_016_00002521407222974419_116_00003338886116348349_015_00000816496580927726_0,
  117_00005246083808549298_117_00027335103166186175_115_00001365365614143439_016_00009743846191342698_016_00002835620846623795_116_00003338886116348349_015_00000816496580927726_0,
  117_00010245687171311416_116_00003407519172674287_016_00011168526183303615_116_00012526449404374806_016_00003149834470273171_116_00003338886116348349_015_00000816496580927726_0,
  117_00010245687171311416_116_00004081528028729957_116_00007071594311503863_016_00007837829901619122_016_00003464048093922547_116_00003338886116348349_115_00001224744871391589_0,
  117_00005246083808549298_116_00003407519172674287_116_00009302801711480313_016_00016264428235133859_016_00003935368529396611_116_00003338886116348349_115_00001224744871391589_0,
  117_00010245687171311416_116_00003407519172674287_116_00006625352831508573_016_00006734346786516008_017_00044066889648706753_016_00029950108064592316_115_00001224744871391589_0,
  117_00010245687171311416_116_00003407519172674287_018_00017982973841959956_017_00003140813895523986_016_00005192223023994115_116_00003338886116348349_015_00000816496580927726_0,
  117_00010245687171311416_116_00004081528028729957_116_00007685176346497387_016_00008138779842101795_016_00005506436647643491_116_00003338886116348349_115_00001224744871391589_0,
  117_00010245687171311416_116_00004081528028729957_117_00016051361815615603_015_00000252104761975864_016_00005977757083117555_116_00003338886116348349_015_00000816496580927726_0,
  117_00005246083808549298_116_00003407519172674287_017_00004587306634166558_117_00014916182533436123_016_00006291970706766932_016_00029950108064592316_115_00001224744871391589_0,
  117_00010245687171311416_116_00003407519172674287_116_00004784606726528002_016_00003223264147551537_016_00007077504765890371_116_00003338886116348349_115_00001224744871391589_0,
  117_00010245687171311416_116_00004081528028729957_116_00007294715051501508_016_00005630863671412888_016_00007548825201364435_116_00003338886116348349_015_00000816496580927726_0,
  117_00010245687171311416_116_00004081528028729957_116_00005732869871517993_016_00011649862481066267_016_00007863038825013812_116_00003338886116348349_015_00000816496580927726_0,
  117_00005246083808549298_116_00003407519172674287_017_00024110371383960497_117_00017925681938262783_016_00008177252448663187_116_00003338886116348349_115_00001224744871391589_0,
  117_00005246083808549298_117_00027335103166186175_116_00014434578731426149_016_00019374244286788098_016_00008648572884137251_116_00003338886116348349_015_00000816496580927726_0,
  117_00005246083808549298_116_00003407519172674287_015_00002617339594814524_116_00019648931329131307_016_00008962786507786628_116_00003338886116348349_015_00000816496580927726_0,
  117_00005246083808549298_116_00003407519172674287_016_00013009272288284186_115_00001653911527747706_016_00009277000131436004_116_00003338886116348349_015_00000816496580927726_0,
  117_00005246083808549298_116_00003407519172674287_016_00013399733583280065_116_00013930882459960594_016_00009591213755085379_116_00003338886116348349_015_00000816496580927726_0,
  117_00005246083808549298_116_00003407519172674287_016_00001574334363404881_117_00045011176581703016_016_00009905427378734756_116_00003338886116348349_015_00000816496580927726_0,
  117_00010245687171311416_116_00004081528028729957_015_00001183788840329655_116_00013028032638512588_016_00010219641002384132_116_00003338886116348349_115_00001224744871391589_0,
  117_00005246083808549298_116_00003407519172674287_115_00001058574596646677_016_00011348912540583593_016_00010690961437858195_116_00003338886116348349_015_00000816496580927726_0,
  118_00002464804457843392_116_00003407519172674287_116_00006346451906511517_017_00008156646236901802_016_00011005175061507573_116_00003338886116348349_115_00001224744871391589_0,
  118_00002464804457843392_116_00004081528028729957_116_00008019857456493854_017_00045273805563097663_016_00011476495496981636_116_00003338886116348349_015_00000816496580927726_0,
  117_00010245687171311416_117_00047555368847852436_016_00003136179543388396_116_00007911883650307214_015_00001179070912063101_016_00029950108064592316_115_00001224744871391589_0,
  117_00010245687171311416_117_00047555368847852436_116_00013820996696432624_016_00016465061528788967_016_00012576243179754452_116_00003338886116348349_015_00000816496580927726_0,
  117_00005246083808549298_116_00004081528028729957_117_00016609163665609716_017_00028219975602413067_016_00012890456803403827_116_00003338886116348349_115_00001224744871391589_0,
  117_00005246083808549298_116_00004081528028729957_117_00031112011765456643_116_00001892884840653836_016_00013361777238877892_116_00003338886116348349_115_00001224744871391589_0,
  117_00005246083808549298_117_00047555368847852436_016_00004530684168373677_116_00008915050118582778_016_00013833097674351955_116_00003338886116348349_015_00000816496580927726_0,
  117_00005246083808549298_116_00004081528028729957_116_00002888080436548019_016_00002220097679275974_016_00014147311298001333_116_00003338886116348349_115_00001224744871391589_0,
  117_00010245687171311416_116_00004081528028729957_015_00004000688182799923_115_00002416318043637134_016_00014618631733475396_116_00003338886116348349_015_00000816496580927726_0,
  117_00015245290534076375_116_00005429545740840913_016_00008491077303331875_116_00012325816110719694_016_00014932845357124773_016_00029950108064592316_115_00001224744871391589_0,
  117_00010245687171311416_117_00047555368847852436_016_00006929232123348361_117_00048020675986529676_016_00015718379416248212_116_00003338886116348349_115_00001224744871391589_0,
  117_00010245687171311416_117_00047555368847852436_016_00005646287868361902_116_00008915050118582778_016_00016189699851722277_116_00003338886116348349_115_00001224744871391589_0,
  117_00015245290534076375_117_00047555368847852436_117_00024976191415521404_117_00021938347811365091_015_00001666102028719634_016_00029950108064592316_115_00001224744871391589_0,
  117_00010245687171311416_116_00004081528028729957_116_00004003684136536244_016_00006232763552378227_015_00001744655434631978_116_00003338886116348349_015_00000816496580927726_0,
  117_00015245290534076375_117_00047555368847852436_116_00007796736716496209_016_00001919147738793301_016_00017760767969969156_116_00003338886116348349_115_00001224744871391589_1,
  117_00015245290534076375_117_00047555368847852436_116_00005230848206523292_016_00002621364266586198_116_00016959837443286896_116_00003338886116348349_015_00000816496580927726_0,
  117_00010245687171311416_116_00004081528028729957_116_00003278541731543898_016_00000915981270517738_116_00016645623819637518_116_00003338886116348349_015_00000816496580927726_0,
  117_00015245290534076375_117_00047555368847852436_018_00040295047841724455_117_00027957346621018414_116_00016331410195988143_116_00003338886116348349_015_00000816496580927726_0,
  117_00015245290534076375_117_00047555368847852436_017_00019647956584007595_117_00042001677176876356_116_00016017196572338768_116_00003338886116348349_015_00000816496580927726_0,
  117_00015245290534076375_117_00047555368847852436_016_00002968838988390162_116_00005805234066928531_115_00001570298294868939_116_00003338886116348349_015_00000816496580927726_0,
  117_00010245687171311416_116_00003407519172674287_116_00002441838956552729_117_00003881351382404913_116_00015388769325040015_116_00003338886116348349_015_00000816496580927726_0,
  117_00010245687171311416_117_00027335103166186175_116_00005119287836524469_015_00000312294750072398_115_00001507455570139064_116_00003338886116348349_015_00000816496580927726_0,
  117_00010245687171311416_116_00003407519172674287_116_00003501662471541543_016_00004427063909482209_116_00014760342077741262_116_00003338886116348349_015_00000816496580927726_0,
  117_00010245687171311416_116_00003407519172674287_016_00005702068053361313_116_00012927715991685031_116_00014446128454091887_116_00003338886116348349_015_00000816496580927726_0,
  117_00010245687171311416_116_00003407519172674287_018_00034717029341783334_116_00007811567003479657_116_00014131914830442511_116_00003338886116348349_015_00000816496580927726_0,
  117_00005246083808549298_117_00027335103166186175_116_00009749043191475603_016_00004427063909482209_116_00013817701206793134_116_00003338886116348349_115_00001224744871391589_0,
  117_00010245687171311416_116_00003407519172674287_017_00028572786183913396_116_00011523282936099244_115_00001334638077131907_116_00003338886116348349_015_00000816496580927726_0,
  117_00010245687171311416_116_00004081528028729957_117_00043941454315321227_116_00002595101368446733_116_00013032167147669695_116_00003338886116348349_015_00000816496580927726_0,
  117_00010245687171311416_116_00004081528028729957_016_00003917102133380153_116_00007510617062996991_116_00012717953524020318_116_00003338886116348349_015_00000816496580927726_0,
  117_00010245687171311416_116_00004081528028729957_016_00005255826573366024_116_00012526449404374806_116_00012403739900370943_116_00003338886116348349_015_00000816496580927726_0,
  117_00005246083808549298_116_00004081528028729957_116_00010641526151466183_016_00012853662242996937_116_00012089526276721567_116_00003338886116348349_015_00000816496580927726_0,
  117_00005246083808549298_116_00004081528028729957_116_00012091810961450875_016_00013957145358100058_115_00001177531265307219_116_00003338886116348349_015_00000816496580927726_0,
  118_00002464804457843392_116_00003407519172674287_016_00005702068053361313_115_00000991821658685834_116_00011461099029422814_116_00003338886116348349_015_00000816496580927726_0,
  118_00002464804457843392_116_00003407519172674287_016_00010554944148310093_115_00001403119910678815_115_00001114688540577344_116_00003338886116348349_015_00000816496580927726_0,
  118_00002464804457843392_117_00027335103166186175_116_00006011770796515049_016_00007737513254791571_116_00010832671782124061_116_00003338886116348349_015_00000816496580927726_0,
  016_00000475312291698062_117_00020595014605633308_016_00005702068053361313_116_00009617266646375675_116_00010518458158474686_116_00003338886116348349_015_00000816496580927726_0,
  016_00000475312291698062_117_00027335103166186175_014_00000046422445383725_117_00038992177772049624_115_00001020424453482531_116_00003338886116348349_115_00001224744871391589_0,
  016_00000475312291698062_117_00027335103166186175_017_00048095850933707335_116_00001993201487481394_116_00009732924099351247_116_00003338886116348349_115_00001224744871391589_0,
  118_00002464804457843392_116_00003407519172674287_016_00018419950233227078_116_00017341648452097511_116_00009261603663877183_116_00003338886116348349_015_00000816496580927726_0,
  118_00002464804457843392_117_00027335103166186175_116_00004840386911527413_016_00006032130258723112_116_00008947390040227806_116_00003338886116348349_015_00000816496580927726_0,
  118_00002464804457843392_117_00027335103166186175_017_00044191237983748544_116_00011322649642444131_115_00000863317641657843_116_00003338886116348349_015_00000816496580927726_0,
  118_00002464804457843392_116_00004081528028729957_016_00026284956318144066_116_00020050197916441532_116_00008318962792929054_116_00003338886116348349_015_00000816496580927726_0,
  117_00005246083808549298_116_00004081528028729957_116_00009804823376475014_013_00000020979310636029_116_00008004749169279678_116_00003338886116348349_015_00000816496580927726_0]

/-- lr/data.csv 2702-2801 -/
def dataCsv27 : List ℕ := [
  117_00005246083808549298_117_00047555368847852436_117_00036690030265397766_017_00004143980363799563_116_00007690535545630302_116_00003338886116348349_015_00000816496580927726_0,
  117_00005246083808549298_116_00005429545740840913_116_00011478228926457352_016_00010847329306445812_116_00007376321921980926_116_00003338886116348349_015_00000816496580927726_0,
  117_00010245687171311416_116_00005429545740840913_015_00001233991006829125_116_00014131515753615709_115_00000706210829833155_116_00003338886116348349_015_00000816496580927726_0,
  117_00010245687171311416_116_00005429545740840913_116_00009302801711480313_016_00018270761171684984_116_00006747894674682174_116_00003338886116348349_115_00001224744871391589_0,
  117_00015245290534076375_116_00005429545740840913_016_00003861321948380742_116_00005604600773273423_115_00000627657423920811_116_00003338886116348349_115_00001224744871391589_0,
  117_00015245290534076375_116_00005429545740840913_115_00001186869022145323_016_00024891659862303697_116_00005805253803734046_116_00003338886116348349_015_00000816496580927726_0,
  117_00020244893896838492_114_00000061035545968962_017_00011838730684090021_117_00028960513089293993_115_00000549104018008467_116_00003338886116348349_115_00001224744871391589_0,
  117_00020244893896838492_115_00000677756345295187_019_00012489183421365824_117_00038992177772049624_116_00005019719744610606_116_00003338886116348349_115_00001224744871391589_0,
  117_00020244893896838492_114_00000061035545968962_015_00004056468367799335_116_00024765080317336676_117_00045483993091365416_116_00003338886116348349_015_00000816496580927726_0,
  117_00020244893896838492_114_00000061035545968962_016_00005702068053361313_117_00042001677176876356_117_00042341856854871657_116_00003338886116348349_015_00000816496580927726_0,
  117_00020244893896838492_114_00000061035545968962_017_00019647956584007595_117_00007894017255507152_115_00000391997206183779_116_00003338886116348349_015_00000816496580927726_0,
  117_00020244893896838492_114_00000061035545968962_116_00007350495236500919_016_00010646696012790704_117_00036057584381884134_116_00003338886116348349_015_00000816496580927726_0,
  117_00015245290534076375_116_00005429545740840913_114_00000132074146614391_015_00001556221170734096_117_00032915448145390375_016_00029950108064592316_115_00001224744871391589_0,
  117_00020244893896838492_116_00005429545740840913_016_00006259869903355426_116_00009216000059065448_117_00025060107554155975_116_00003338886116348349_115_00001224744871391589_0,
  117_00020244893896838492_114_00000061035545968962_115_00000963748282147678_016_00015261261766858294_117_00020346903199415334_116_00003338886116348349_115_00001224744871391589_0,
  116_00002524449725960345_115_00000677756345295187_016_00009048879153325988_116_00011422966289271685_117_00015633698844674693_116_00003338886116348349_115_00001224744871391589_0,
  116_00002524449725960345_115_00000677756345295187_117_00022744984015544953_016_00004627697203137324_117_00010920494489934053_116_00003338886116348349_015_00000816496580927726_0,
  116_00002524449725960345_114_00000061035545968962_115_00000651379246150975_016_00005329913730930215_117_00007778358253440293_116_00003338886116348349_115_00001224744871391589_0,
  116_00002524449725960345_114_00000061035545968962_116_00010139504486471482_016_00007336246667481341_117_00003065153898699653_116_00003338886116348349_015_00000816496580927726_0,
  116_00002524449725960345_116_00005429545740840913_016_00008435297118332464_115_00001082106640830635_019_00007698233779410749_116_00003338886116348349_015_00000816496580927726_0,
  117_00020244893896838492_116_00005429545740840913_017_00011280928834095907_117_00008897183723782728_017_00003219118574287868_116_00003338886116348349_015_00000816496580927726_0,
  117_00020244893896838492_117_00047555368847852436_017_00007934117734131232_116_00007610933709824549_017_00006361254810781627_116_00003338886116348349_115_00001224744871391589_0,
  117_00020244893896838492_117_00047555368847852436_017_00010723126984101795_116_00005203334185963199_017_00011074459165522269_116_00003338886116348349_015_00000816496580927726_0,
  117_00015245290534076375_116_00004081528028729957_116_00009860603561474425_016_00011950812421548933_016_00001421659540201603_116_00003338886116348349_015_00000816496580927726_0,
  117_00010245687171311416_117_00047555368847852436_117_00038363435815380104_016_00002721680913413756_016_00001735873163850979_116_00003338886116348349_115_00001224744871391589_0,
  117_00010245687171311416_116_00004081528028729957_017_00009049721434119458_116_00005203334185963199_016_00002207193599325043_116_00003338886116348349_015_00000816496580927726_0,
  117_00010245687171311416_116_00004081528028729957_116_00006458012276510339_016_00002922314207068864_016_00002521407222974419_116_00003338886116348349_115_00001224744871391589_0,
  117_00015245290534076375_117_00047555368847852436_116_00005844430241516816_117_00014916182533436123_016_00002992727658448483_116_00003338886116348349_015_00000816496580927726_0,
  117_00015245290534076375_117_00047555368847852436_016_00013399733583280065_116_00014532782340925934_016_00003306941282097859_116_00003338886116348349_015_00000816496580927726_0,
  117_00015245290534076375_117_00047555368847852436_116_00006792693386506806_016_00014659361885892956_017_00036211549057472353_116_00003338886116348349_015_00000816496580927726_0,
  117_00020244893896838492_116_00005429545740840913_116_00006346451906511517_016_00005931813611895553_016_00003935368529396611_116_00003338886116348349_015_00000816496580927726_0,
  117_00015245290534076375_116_00005429545740840913_016_00003247739913387218_116_00007109350475686768_016_00004249582153045987_116_00003338886116348349_115_00001224744871391589_0,
  117_00015245290534076375_116_00005429545740840913_116_00010753086521465005_015_00001746822799706453_016_00004720902588520051_116_00003338886116348349_015_00000816496580927726_0,
  117_00015245290534076375_116_00005429545740840913_115_00000651379246150975_017_00004143980363799563_016_00005035116212169427_116_00003338886116348349_015_00000816496580927726_0,
  117_00015245290534076375_116_00005429545740840913_016_00001853235288401937_116_00007209667122514325_016_00005349329835818804_016_00029950108064592316_115_00001224744871391589_0,
  117_00015245290534076375_116_00005429545740840913_116_00007071594311503863_016_00005430230377757772_016_00006134863894942243_116_00003338886116348349_015_00000816496580927726_0,
  117_00015245290534076375_114_00000061035545968962_017_00020763560283995822_117_00035982678367222964_016_00006449077518591619_116_00003338886116348349_115_00001224744871391589_0,
  117_00015245290534076375_114_00000061035545968962_116_00001716696551560383_017_00012169312110004112_016_00006920397954065683_116_00003338886116348349_115_00001224744871391589_0,
  117_00010245687171311416_114_00000061035545968962_116_00002386058771553318_016_00004427063909482209_016_00007391718389539748_116_00003338886116348349_115_00001224744871391589_0,
  117_00010245687171311416_116_00005429545740840913_016_00001853235288401937_117_00046014343049978595_016_00007863038825013812_116_00003338886116348349_015_00000816496580927726_0,
  117_00020244893896838492_115_00000677756345295187_117_00007684334065703917_017_00028219975602413067_016_00008177252448663187_116_00003338886116348349_015_00000816496580927726_0,
  117_00020244893896838492_115_00000677756345295187_116_00008968120601483845_016_00011950812421548933_016_00008491466072312563_116_00003338886116348349_015_00000816496580927726_0,
  117_00020244893896838492_114_00000061035545968962_116_00009470142266478546_016_00011449229187411152_015_00000880567969596194_116_00003338886116348349_015_00000816496580927726_0,
  117_00020244893896838492_114_00000061035545968962_116_00003501662471541543_016_00005329913730930215_016_00009119893319611315_116_00003338886116348349_015_00000816496580927726_0,
  117_00015245290534076375_116_00005429545740840913_016_00004530684168373677_116_00010018533233685898_016_00009434106943260692_116_00003338886116348349_015_00000816496580927726_0,
  117_00015245290534076375_114_00000061035545968962_017_00035824210233836856_117_00014916182533436123_016_00009748320566910068_116_00003338886116348349_115_00001224744871391589_0,
  117_00015245290534076375_116_00005429545740840913_116_00007127374496503274_016_00006132446905550669_016_00010219641002384132_116_00003338886116348349_015_00000816496580927726_0,
  117_00015245290534076375_116_00005429545740840913_016_00004307563428376032_116_00008413466884444997_016_00010533854626033508_116_00003338886116348349_015_00000816496580927726_0,
  117_00015245290534076375_116_00005429545740840913_014_00000051442662033672_117_00049023842454805255_016_00010848068249682883_116_00003338886116348349_015_00000816496580927726_0,
  117_00015245290534076375_116_00005429545740840913_016_00008156396193335408_115_00001112201634878902_015_00001116228187333226_116_00003338886116348349_115_00001224744871391589_1,
  117_00015245290534076375_116_00005429545740840913_116_00004617266171529768_017_00006150313300350718_016_00011633602308806323_016_00029950108064592316_115_00001224744871391589_0,
  117_00015245290534076375_114_00000061035545968962_116_00006792693386506806_015_00001014511277865292_016_00012419136367929764_116_00003338886116348349_015_00000816496580927726_0,
  117_00015245290534076375_114_00000061035545968962_016_00017415906903237675_116_00015335315515546384_015_00001273334999157914_116_00003338886116348349_115_00001224744871391589_0,
  117_00015245290534076375_114_00000061035545968962_016_00009829801743317745_116_00012225499463892138_016_00013204670427053204_116_00003338886116348349_015_00000816496580927726_0,
  117_00020244893896838492_114_00000061035545968962_016_00005088486018367789_116_00007711250356652106_015_00001351888405070258_016_00029950108064592316_115_00001224744871391589_0,
  117_00015245290534076375_116_00005429545740840913_115_00000339010210154272_116_00001190668312860946_015_00001430441810982602_116_00003338886116348349_015_00000816496580927726_0,
  117_00015245290534076375_116_00005429545740840913_015_00001351129395327889_116_00010419799820996123_016_00014618631733475396_116_00003338886116348349_015_00000816496580927726_0,
  117_00010245687171311416_116_00005429545740840913_115_00000556552931651976_117_00038992177772049624_016_00014932845357124773_116_00003338886116348349_015_00000816496580927726_0,
  117_00015245290534076375_116_00005429545740840913_116_00007071594311503863_016_00005329913730930215_016_00015247058980774149_116_00003338886116348349_115_00001224744871391589_0,
  117_00015245290534076375_114_00000061035545968962_117_00031112011765456643_017_00011166145641728534_016_00015718379416248212_116_00003338886116348349_015_00000816496580927726_0,
  117_00010245687171311416_116_00005429545740840913_116_00007740956531496798_016_00002621364266586198_015_00001603259303989759_116_00003338886116348349_015_00000816496580927726_0,
  117_00010245687171311416_117_00047555368847852436_116_00013374755216437333_015_00002519260980278636_016_00016346806663546964_116_00003338886116348349_015_00000816496580927726_1,
  117_00010245687171311416_116_00005429545740840913_116_00003334321916543309_016_00004427063909482209_015_00001666102028719634_116_00003338886116348349_015_00000816496580927726_0,
  117_00010245687171311416_116_00005429545740840913_116_00002664959696550374_016_00007536879961136456_016_00016975233910845717_116_00003338886116348349_015_00000816496580927726_0,
  117_00005246083808549298_117_00047555368847852436_116_00008354538566490322_016_00012853662242996937_116_00016959837443286896_116_00003338886116348349_115_00001224744871391589_0,
  117_00005246083808549298_116_00004081528028729957_116_00007796736716496209_016_00014859995179548064_115_00001648851700781283_116_00003338886116348349_115_00001224744871391589_0,
  117_00005246083808549298_116_00004081528028729957_016_00019535553933215304_115_00001403119910678815_116_00016017196572338768_116_00003338886116348349_115_00001224744871391589_0,
  118_00002464804457843392_116_00003407519172674287_015_00002154364059319411_116_00018144181626717961_116_00015545876136864702_116_00003338886116348349_015_00000816496580927726_0,
  118_00002464804457843392_116_00003407519172674287_016_00007598594343341296_116_00009817899940030786_116_00015231662513215327_116_00003338886116348349_015_00000816496580927726_0,
  118_00002464804457843392_117_00027335103166186175_116_00003445882286542132_116_00001892884840653836_115_00001491744888956595_116_00003338886116348349_115_00001224744871391589_0,
  118_00002464804457843392_117_00027335103166186175_116_00009749043191475603_016_00005931813611895553_116_00014446128454091887_116_00003338886116348349_015_00000816496580927726_0,
  117_00005246083808549298_116_00003407519172674287_116_00004896167096526824_117_00005887684318956068_116_00014131914830442511_116_00003338886116348349_015_00000816496580927726_0,
  117_00005246083808549298_116_00004081528028729957_116_00004003684136536244_017_00012169312110004112_116_00013817701206793134_116_00003338886116348349_015_00000816496580927726_0,
  117_00005246083808549298_116_00004081528028729957_016_00017806368198233555_116_00017542281745752621_116_00013503487583143758_116_00003338886116348349_015_00000816496580927726_0,
  016_00000475312291698062_116_00004081528028729957_017_00011280928834095907_118_00028781849141293357_116_00013189273959494383_116_00003338886116348349_015_00000816496580927726_0,
  016_00000475312291698062_116_00004081528028729957_017_00011838730684090021_016_00007737513254791571_116_00012875060335845006_116_00003338886116348349_015_00000816496580927726_0,
  016_00000475312291698062_116_00004081528028729957_116_00004784606726528002_016_00007637196607964014_115_00001256084671219563_116_00003338886116348349_015_00000816496580927726_0,
  016_00000475312291698062_116_00004081528028729957_116_00004171024691534478_017_00017185144451381926_116_00012246633088546255_116_00003338886116348349_015_00000816496580927726_0,
  118_00002464804457843392_116_00004081528028729957_116_00012872733551442632_015_00001024542942548048_116_00011932419464896877_116_00003338886116348349_015_00000816496580927726_0,
  016_00000475312291698062_116_00003407519172674287_116_00010362625226469127_016_00010947645953273368_116_00011618205841247502_116_00003338886116348349_015_00000816496580927726_0,
  017_00009752726279742736_117_00027335103166186175_016_00000960752328411357_117_00042001677176876356_116_00011303992217598127_116_00003338886116348349_115_00001224744871391589_0,
  017_00009752726279742736_116_00003407519172674287_015_00003593492832304221_115_00002225716414664777_116_00010832671782124061_116_00003338886116348349_015_00000816496580927726_0,
  017_00009752726279742736_117_00027335103166186175_116_00002664959696550374_017_00018188310919657433_116_00010518458158474686_116_00003338886116348349_115_00001224744871391589_0,
  017_00009752726279742736_117_00027335103166186175_118_00060109285157215794_117_00049023842454805255_116_00010047137723000623_116_00003338886116348349_115_00001224744871391589_0,
  017_00009752726279742736_117_00027335103166186175_115_00000606755098151446_016_00012753345596169388_116_00009575817287526558_116_00003338886116348349_015_00000816496580927726_0,
  017_00009752726279742736_116_00003407519172674287_116_00002441838956552729_116_00007410300416169433_116_00009261603663877183_116_00003338886116348349_015_00000816496580927726_0,
  017_00009752726279742736_116_00003407519172674287_016_00005088486018367789_116_00011723916229754356_116_00008947390040227806_116_00003338886116348349_115_00001224744871391589_0,
  017_00014752329642507697_117_00027335103166186175_117_00008242135915698029_115_00000159193490017117_116_00008476069604753742_116_00003338886116348349_115_00001224744871391589_0,
  017_00014752329642507697_117_00027335103166186175_115_00001186869022145323_016_00012452395655686714_116_00008004749169279678_116_00003338886116348349_015_00000816496580927726_0,
  017_00014752329642507697_116_00003407519172674287_115_00000562130950151917_016_00004025797322171985_116_00007690535545630302_016_00029950108064592316_115_00001224744871391589_0,
  017_00019751933005269812_117_00027335103166186175_116_00010195284671470892_016_00005931813611895553_116_00006905001486506862_116_00003338886116348349_015_00000816496580927726_0,
  017_00019751933005269812_117_00027335103166186175_116_00006848473571506217_016_00003323580794379088_116_00006590787862857486_016_00029950108064592316_115_00001224744871391589_0,
  017_00019751933005269812_117_00020595014605633308_016_00002522597508394872_116_00007410300416169433_116_00005805253803734046_116_00003338886116348349_015_00000816496580927726_0,
  017_00014752329642507697_117_00027335103166186175_016_00003247739913387218_116_00008212833590789884_115_00000549104018008467_116_00003338886116348349_015_00000816496580927726_0,
  017_00019751933005269812_117_00027335103166186175_017_00007934117734131232_016_00003925480675344427_116_00005176826556435293_116_00003338886116348349_015_00000816496580927726_0,
  017_00014752329642507697_116_00003407519172674287_116_00007462055606499741_016_00009442896250860024_117_00048626129327859174_116_00003338886116348349_115_00001224744871391589_0,
  017_00009752726279742736_116_00003407519172674287_019_00012489183421365824_116_00004701750951825417_116_00004391292497311854_116_00003338886116348349_015_00000816496580927726_0,
  017_00014752329642507697_117_00027335103166186175_115_00000785251690149562_015_00001375651206444495_117_00040770788736624775_116_00003338886116348349_115_00001224744871391589_0,
  017_00014752329642507697_117_00027335103166186175_016_00001630114548404292_117_00003881351382404913_117_00036057584381884134_116_00003338886116348349_015_00000816496580927726_0,
  017_00014752329642507697_117_00027335103166186175_116_00007517835791499152_016_00004627697203137324_117_00032915448145390375_116_00003338886116348349_015_00000816496580927726_0]

/-- lr/data.csv 2802-2901 -/
def dataCsv28 : List ℕ := [
  017_00009752726279742736_116_00003407519172674287_116_00002162938031555673_016_00005731180318240445_117_00029773311908896616_116_00003338886116348349_115_00001224744871391589_0,
  017_00009752726279742736_116_00003407519172674287_016_00005757848238360724_116_00011222332995616573_117_00025060107554155975_116_00003338886116348349_115_00001224744871391589_0,
  017_00014752329642507697_117_00027335103166186175_117_00016609163665609716_015_00000663403013968845_117_00020346903199415334_116_00003338886116348349_115_00001224744871391589_0,
  017_00009752726279742736_116_00003407519172674287_115_00001092042707646324_015_00001024542942548048_117_00015633698844674693_116_00003338886116348349_015_00000816496580927726_0,
  016_00000475312291698062_116_00003407519172674287_117_00049519472815262355_018_00011344809589729025_117_00012491562608180934_116_00003338886116348349_015_00000816496580927726_0,
  118_00002464804457843392_116_00004081528028729957_117_00043941454315321227_016_00003524214088034203_117_00009349426371687174_116_00003338886116348349_015_00000816496580927726_0,
  118_00002464804457843392_117_00047555368847852436_116_00009749043191475603_017_00012169312110004112_118_00062072901351934134_116_00003338886116348349_015_00000816496580927726_0,
  117_00005246083808549298_117_00047555368847852436_116_00004840386911527413_016_00001919147738793301_117_00003065153898699653_116_00003338886116348349_115_00001224744871391589_0,
  117_00005246083808549298_117_00047555368847852436_117_00037805633965385993_017_00018188310919657433_018_00016480504560409875_116_00003338886116348349_015_00000816496580927726_0,
  117_00005246083808549298_116_00005429545740840913_015_00000330352009838663_116_00005403967479618307_017_00004790186692534748_116_00003338886116348349_015_00000816496580927726_0,
  117_00010245687171311416_114_00000061035545968962_016_00013009272288284186_116_00015234998868718825_017_00007932322929028508_116_00003338886116348349_015_00000816496580927726_0,
  117_00005246083808549298_116_00005429545740840913_016_00012395690253290663_116_00014432465694098375_017_00011074459165522269_116_00003338886116348349_015_00000816496580927726_0,
  118_00002464804457843392_117_00047555368847852436_116_00007015814126504452_017_00007153479768626296_016_00001421659540201603_116_00003338886116348349_115_00001224744871391589_0,
  118_00002464804457843392_117_00047555368847852436_015_00001942399356321648_116_00017441965098925065_017_00018929799756756668_116_00003338886116348349_015_00000816496580927726_0,
  118_00002464804457843392_117_00047555368847852436_116_00008019857456493854_016_00016565378175616523_016_00002207193599325043_116_00003338886116348349_015_00000816496580927726_0,
  016_00000475312291698062_116_00004081528028729957_017_00016858947334037033_116_00008413466884444997_016_00002521407222974419_116_00003338886116348349_115_00001224744871391589_0,
  016_00000475312291698062_116_00004081528028729957_116_00005844430241516816_016_00007336246667481341_016_00002992727658448483_116_00003338886116348349_015_00000816496580927726_0,
  017_00009752726279742736_116_00003407519172674287_116_00006792693386506806_017_00011166145641728534_016_00003306941282097859_116_00003338886116348349_015_00000816496580927726_0,
  017_00009752726279742736_116_00003407519172674287_016_00010610724333309502_114_00000116235995829268_017_00036211549057472353_116_00003338886116348349_015_00000816496580927726_0,
  017_00009752726279742736_116_00003407519172674287_116_00010195284671470892_016_00011148279246928485_016_00003935368529396611_116_00003338886116348349_015_00000816496580927726_0,
  017_00009752726279742736_116_00003407519172674287_116_00005732869871517993_016_00008840996369894685_016_00004249582153045987_116_00003338886116348349_015_00000816496580927726_0,
  017_00014752329642507697_117_00027335103166186175_116_00006681133016507984_015_00000252104761975864_016_00004563795776695363_116_00003338886116348349_115_00001224744871391589_0,
  017_00014752329642507697_117_00027335103166186175_017_00030246191733895733_116_00001892884840653836_016_00005035116212169427_116_00003338886116348349_015_00000816496580927726_0,
  017_00014752329642507697_116_00003407519172674287_116_00012203371331449697_015_00002228342704478724_016_00005349329835818804_116_00003338886116348349_115_00001224744871391589_0,
  017_00014752329642507697_116_00003407519172674287_116_00005063507651525058_017_00024207309729310825_016_00005820650271292868_116_00003338886116348349_115_00001224744871391589_0,
  017_00014752329642507697_116_00004081528028729957_117_00038363435815380104_116_00006507450594721428_016_00006291970706766932_116_00003338886116348349_015_00000816496580927726_0,
  017_00014752329642507697_116_00004081528028729957_016_00004084442688378387_116_00006908717182031652_016_00006606184330416307_116_00003338886116348349_115_00001224744871391589_0,
  017_00019751933005269812_116_00004081528028729957_116_00007071594311503863_016_00011649862481066267_016_00007077504765890371_116_00003338886116348349_015_00000816496580927726_0,
  017_00019751933005269812_116_00004081528028729957_016_00018754631343223545_116_00016137848690166836_016_00007391718389539748_116_00003338886116348349_115_00001224744871391589_0,
  017_00014752329642507697_117_00047555368847852436_016_00004084442688378387_115_00000399953442403252_016_00007863038825013812_116_00003338886116348349_015_00000816496580927726_0,
  017_00019751933005269812_117_00047555368847852436_116_00007127374496503274_016_00001618197798310635_016_00008177252448663187_116_00003338886116348349_115_00001224744871391589_0,
  017_00014752329642507697_116_00005429545740840913_116_00002720739881549785_015_00000793814654844668_016_00008648572884137251_116_00003338886116348349_115_00001224744871391589_0,
  017_00019751933005269812_117_00047555368847852436_116_00004003684136536244_017_00003140813895523986_016_00009119893319611315_116_00003338886116348349_115_00001224744871391589_0,
  017_00014752329642507697_116_00005429545740840913_015_00001496157876326358_116_00013629932519477927_016_00009591213755085379_116_00003338886116348349_015_00000816496580927726_0,
  017_00014752329642507697_114_00000061035545968962_116_00009525922451477957_016_00006032130258723112_016_00009905427378734756_116_00003338886116348349_015_00000816496580927726_0,
  017_00014752329642507697_116_00005429545740840913_016_00001853235288401937_116_00008012200297134773_016_00010219641002384132_116_00003338886116348349_015_00000816496580927726_0,
  017_00014752329642507697_114_00000061035545968962_117_00045057058015309454_016_00004326747262654651_016_00010533854626033508_116_00003338886116348349_115_00001224744871391589_0,
  017_00014752329642507697_114_00000061035545968962_016_00008937318783327166_116_00009717583293203229_016_00011005175061507573_116_00003338886116348349_015_00000816496580927726_0,
  017_00014752329642507697_117_00047555368847852436_115_00000339010210154272_117_00004884517850680491_016_00011319388685156948_116_00003338886116348349_015_00000816496580927726_0,
  017_00019751933005269812_116_00004081528028729957_116_00009860603561474425_017_00021197810324484165_016_00011633602308806323_116_00003338886116348349_115_00001224744871391589_0,
  017_00019751933005269812_116_00004081528028729957_116_00002888080436548019_117_00010903516660333884_016_00012104922744280389_016_00029950108064592316_115_00001224744871391589_0,
  017_00014752329642507697_116_00004081528028729957_016_00009271999893323634_116_00010620433114651238_016_00012890456803403827_116_00003338886116348349_015_00000816496580927726_0,
  017_00014752329642507697_117_00047555368847852436_116_00010808866706464417_016_00013555878770789835_016_00013204670427053204_116_00003338886116348349_015_00000816496580927726_0,
  017_00014752329642507697_116_00005429545740840913_117_00003779721115745129_018_00021376474272484798_015_00001351888405070258_116_00003338886116348349_015_00000816496580927726_0,
  017_00014752329642507697_116_00005429545740840913_016_00006204089718356014_117_00048020675986529676_016_00013833097674351955_116_00003338886116348349_015_00000816496580927726_0,
  017_00014752329642507697_116_00005429545740840913_115_00000785251690149562_015_00001445872859223784_016_00014147311298001333_116_00003338886116348349_015_00000816496580927726_0,
  017_00014752329642507697_116_00005429545740840913_116_00007071594311503863_016_00004828330496792433_016_00014461524921650708_116_00003338886116348349_015_00000816496580927726_0,
  017_00019751933005269812_117_00047555368847852436_117_00007684334065703917_117_00003881351382404913_016_00014775738545300083_116_00003338886116348349_015_00000816496580927726_0,
  017_00014752329642507697_117_00047555368847852436_116_00008242978196491499_015_00001796981123120231_015_00001508995216894946_116_00003338886116348349_115_00001224744871391589_0,
  017_00019751933005269812_117_00047555368847852436_015_00001267459117828772_116_00011824232876581913_016_00015561272604423524_116_00003338886116348349_015_00000816496580927726_0,
  017_00019751933005269812_117_00047555368847852436_016_00007375473603343651_116_00005002700892308083_014_00000158754862280729_116_00003338886116348349_015_00000816496580927726_0,
  016_00002475153636803477_117_00047555368847852436_116_00009247021526480902_016_00008840996369894685_016_00016189699851722277_116_00003338886116348349_015_00000816496580927726_0,
  016_00002475153636803477_116_00004081528028729957_116_00010697306336465593_015_00001014511277865292_016_00016503913475371652_116_00003338886116348349_115_00001224744871391589_0,
  016_00002475153636803477_117_00047555368847852436_019_00012489183421365824_117_00008897183723782728_016_00016975233910845717_116_00003338886116348349_115_00001224744871391589_0,
  016_00002475153636803477_117_00047555368847852436_117_00038363435815380104_017_00008156646236901802_015_00001744655434631978_116_00003338886116348349_015_00000816496580927726_0,
  016_00002475153636803477_117_00047555368847852436_118_00060109285157215794_117_00029963679557569567_016_00017760767969969156_116_00003338886116348349_015_00000816496580927726_0,
  016_00002475153636803477_117_00047555368847852436_117_00037805633965385993_016_00005229597084102664_016_00018074981593618533_016_00029950108064592316_115_00001224744871391589_0,
  017_00019751933005269812_116_00005429545740840913_118_00060109285157215794_117_00027957346621018414_016_00018860515652741972_116_00003338886116348349_115_00001224744871391589_0,
  016_00002475153636803477_117_00047555368847852436_116_00006792693386506806_016_00011549545834238708_016_00019331836088216037_116_00003338886116348349_015_00000816496580927726_1,
  016_00002975113973079973_116_00004081528028729957_017_00005702910334154783_016_00003423897441206646_016_00019646049711865412_116_00003338886116348349_015_00000816496580927726_0,
  016_00002975113973079973_116_00004081528028729957_116_00004226804876533889_016_00009242262957204916_015_00001996026333551479_016_00029950108064592316_115_00001224744871391589_0,
  016_00003475074309356185_116_00003407519172674287_116_00003334321916543309_016_00003624530734861761_015_00002074579739463823_116_00003338886116348349_015_00000816496580927726_0,
  016_00002975113973079973_116_00003407519172674287_016_00018308389863228256_115_00001704069851161484_016_00021060011018287605_116_00003338886116348349_015_00000816496580927726_0,
  016_00002975113973079973_116_00004081528028729957_117_00037805633965385993_016_00004126113968999543_015_00002137422464193698_116_00003338886116348349_015_00000816496580927726_0,
  016_00002975113973079973_116_00004081528028729957_116_00008856560231485022_016_00007637196607964014_016_00021688438265586356_016_00029950108064592316_115_00001224744871391589_1,
  016_00003475074309356185_117_00020595014605633308_016_00004698024723371911_116_00007309983769341876_116_00016959837443286896_016_00029950108064592316_115_00001224744871391589_0,
  017_00039750346456326807_117_00020595014605633308_015_00002555981391315172_116_00019347981388648636_116_00016174303384163455_116_00003338886116348349_015_00000816496580927726_0,
  016_00003475074309356185_117_00027335103166186175_115_00000829875838149091_016_00008540046429412019_116_00015860089760514078_016_00029950108064592316_115_00001224744871391589_0,
  017_00039750346456326807_117_00020595014605633308_116_00006736913201507395_015_00000663403013968845_115_00001507455570139064_116_00003338886116348349_015_00000816496580927726_0,
  017_00039750346456326807_117_00020595014605633308_117_00011031145165668592_117_00042001677176876356_116_00014760342077741262_116_00003338886116348349_015_00000816496580927726_0,
  017_00039750346456326807_117_00020595014605633308_117_00011031145165668592_118_00028781849141293357_116_00014446128454091887_116_00003338886116348349_115_00001224744871391589_0,
  016_00003475074309356185_117_00027335103166186175_118_00015485137157686792_117_00027957346621018414_116_00013974808018617824_116_00003338886116348349_115_00001224744871391589_0,
  017_00039750346456326807_117_00027335103166186175_016_00007877495268338351_116_00011322649642444131_116_00013503487583143758_116_00003338886116348349_015_00000816496580927726_0,
  016_00002975113973079973_116_00004081528028729957_017_00009049721434119458_117_00020935181343089515_116_00013189273959494383_016_00029950108064592316_115_00001224744871391589_0,
  016_00002975113973079973_116_00003407519172674287_117_00037805633965385993_015_00000964352954451514_116_00012403739900370943_116_00003338886116348349_015_00000816496580927726_0,
  016_00002475153636803477_116_00004081528028729957_016_00018866191713222369_115_00001623816533699439_116_00012089526276721567_116_00003338886116348349_115_00001224744871391589_0,
  016_00002475153636803477_117_00047555368847852436_017_00021879163983984046_116_00009516949999548118_116_00011618205841247502_116_00003338886116348349_115_00001224744871391589_0,
  016_00002475153636803477_116_00004081528028729957_015_00000648299064335307_116_00007911883650307214_115_00001114688540577344_116_00003338886116348349_115_00001224744871391589_0,
  016_00002475153636803477_116_00004081528028729957_117_00020513776615568505_115_00000570491742010098_116_00010675564970299374_016_00029950108064592316_115_00001224744871391589_0,
  016_00002975113973079973_116_00004081528028729957_116_00009581702636477369_014_00000232865935130628_116_00009890030911175934_116_00003338886116348349_115_00001224744871391589_1,
  016_00003475074309356185_116_00003407519172674287_018_00012404955342018832_117_00027957346621018414_115_00000941871047570187_116_00003338886116348349_015_00000816496580927726_0,
  016_00002975113973079973_117_00027335103166186175_016_00002745718248392517_117_00029963679557569567_116_00009104496852052494_116_00003338886116348349_115_00001224744871391589_0,
  016_00002975113973079973_117_00027335103166186175_016_00008100616008335997_116_00007209667122514325_115_00000863317641657843_116_00003338886116348349_015_00000816496580927726_0,
  016_00002975113973079973_116_00003407519172674287_116_00005677089686518582_019_00013131449069732513_116_00008318962792929054_116_00003338886116348349_015_00000816496580927726_0,
  016_00002975113973079973_117_00027335103166186175_116_00007238934866502097_017_00024207309729310825_116_00008004749169279678_116_00003338886116348349_015_00000816496580927726_0,
  016_00002475153636803477_116_00003407519172674287_116_00012203371331449697_016_00009944479484997806_116_00007690535545630302_116_00003338886116348349_115_00001224744871391589_0,
  016_00002475153636803477_116_00003407519172674287_016_00005367386943364846_116_00005805234066928531_116_00007219215110156237_016_00029950108064592316_115_00001224744871391589_0,
  016_00002475153636803477_116_00003407519172674287_016_00008491077303331875_116_00012426132757547248_116_00006433681051032798_116_00003338886116348349_115_00001224744871391589_0,
  016_00002975113973079973_117_00027335103166186175_116_00009693263006476192_016_00010044796131825364_116_00005962360615558734_116_00003338886116348349_115_00001224744871391589_0,
  016_00003475074309356185_117_00020595014605633308_117_00008799937765692141_117_00017925681938262783_115_00000549104018008467_116_00003338886116348349_115_00001224744871391589_0,
  016_00002975113973079973_117_00020595014605633308_017_00030246191733895733_116_00007610933709824549_116_00005019719744610606_116_00003338886116348349_015_00000816496580927726_0,
  016_00002975113973079973_117_00027335103166186175_016_00007989055638337175_116_00009316316705893005_115_00000470550612096123_116_00003338886116348349_015_00000816496580927726_0,
  016_00003475074309356185_117_00027335103166186175_116_00011701349666454997_016_00014358411945410283_116_00004391292497311854_116_00003338886116348349_015_00000816496580927726_0,
  016_00003475074309356185_117_00027335103166186175_016_00001630114548404292_117_00048020675986529676_117_00040770788736624775_116_00003338886116348349_115_00001224744871391589_0,
  016_00003475074309356185_117_00027335103166186175_015_00001083384507330715_116_00015234998868718825_117_00036057584381884134_116_00003338886116348349_015_00000816496580927726_0,
  016_00003475074309356185_117_00027335103166186175_117_00036690030265397766_016_00008138779842101795_117_00032915448145390375_116_00003338886116348349_115_00001224744871391589_0,
  016_00003475074309356185_116_00003407519172674287_016_00005255826573366024_116_00008714416824927665_117_00028202243790649734_116_00003338886116348349_115_00001224744871391589_0,
  016_00002975113973079973_116_00003407519172674287_117_00004895324815733354_018_00021376474272484798_117_00023489039435909095_116_00003338886116348349_115_00001224744871391589_0,
  016_00002975113973079973_116_00003407519172674287_017_00006260712184148895_018_00021376474272484798_117_00018775835081168454_116_00003338886116348349_115_00001224744871391589_0,
  016_00002975113973079973_116_00004081528028729957_116_00007183154681502685_017_00006150313300350718_117_00014062630726427813_116_00003338886116348349_015_00000816496580927726_0]

/-- lr/data.csv 2902-3001 -/
def dataCsv29 : List ℕ := [
  016_00002475153636803477_117_00047555368847852436_017_00019647956584007595_116_00006507450594721428_117_00010920494489934053_116_00003338886116348349_015_00000816496580927726_0,
  016_00002975113973079973_116_00004081528028729957_116_00006346451906511517_017_00003140813895523986_117_00007778358253440293_116_00003338886116348349_015_00000816496580927726_0,
  016_00002975113973079973_116_00004081528028729957_018_00012404955342018832_117_00048020675986529676_118_00046362220169465326_116_00003338886116348349_115_00001224744871391589_0,
  016_00003475074309356185_116_00003407519172674287_015_00001083384507330715_116_00013328982578995259_019_00007698233779410749_116_00003338886116348349_115_00001224744871391589_0,
  016_00002975113973079973_116_00004081528028729957_015_00005339412622785793_115_00002657077996023269_017_00004790186692534748_116_00003338886116348349_015_00000816496580927726_0,
  016_00002975113973079973_116_00004081528028729957_016_00000737631588413712_117_00035982678367222964_017_00007932322929028508_116_00003338886116348349_015_00000816496580927726_0,
  016_00002975113973079973_117_00047555368847852436_116_00007238934866502097_117_00012909849596884967_017_00011074459165522269_116_00003338886116348349_015_00000816496580927726_0,
  016_00002975113973079973_116_00004081528028729957_017_00023552569533966383_117_00043004843645151863_016_00001421659540201603_116_00003338886116348349_115_00001224744871391589_0,
  016_00003475074309356185_116_00003407519172674287_116_00016052204096409073_016_00019976144167753438_017_00018929799756756668_116_00003338886116348349_015_00000816496580927726_0,
  016_00003475074309356185_117_00027335103166186175_116_00002162938031555673_016_00004126113968999543_016_00002207193599325043_116_00003338886116348349_015_00000816496580927726_0,
  016_00002975113973079973_116_00003407519172674287_017_00020763560283995822_116_00001190668312860946_016_00002521407222974419_116_00003338886116348349_015_00000816496580927726_0,
  016_00003475074309356185_116_00003407519172674287_116_00010418405411468539_016_00004025797322171985_016_00002835620846623795_116_00003338886116348349_115_00001224744871391589_0,
  016_00003475074309356185_117_00027335103166186175_016_00006817671753349538_116_00009717583293203229_016_00003306941282097859_116_00003338886116348349_015_00000816496580927726_0,
  016_00003475074309356185_117_00027335103166186175_018_00012404955342018832_116_00005403967479618307_017_00036211549057472353_116_00003338886116348349_015_00000816496580927726_0,
  016_00002975113973079973_117_00027335103166186175_016_00019479773748215892_116_00019548614682303749_016_00003935368529396611_016_00029950108064592316_115_00001224744871391589_0,
  016_00002475153636803477_116_00003407519172674287_116_00015829083356411429_016_00022183110397959678_016_00004720902588520051_116_00003338886116348349_015_00000816496580927726_0,
  016_00002975113973079973_117_00027335103166186175_116_00007127374496503274_016_00001618197798310635_016_00005035116212169427_116_00003338886116348349_015_00000816496580927726_0,
  016_00002975113973079973_116_00003407519172674287_117_00012704550715650928_117_00009900350192058306_016_00005349329835818804_116_00003338886116348349_015_00000816496580927726_0,
  016_00002975113973079973_116_00003407519172674287_116_00002609179511550963_116_00006005867360583647_016_00005663543459468179_116_00003338886116348349_115_00001224744871391589_0,
  016_00002975113973079973_117_00027335103166186175_015_00001044338377831127_116_00010018533233685898_016_00006134863894942243_116_00003338886116348349_015_00000816496580927726_0,
  016_00003475074309356185_117_00020595014605633308_015_00000330352009838663_116_00006306817301066312_016_00006449077518591619_116_00003338886116348349_015_00000816496580927726_0,
  017_00039750346456326807_116_00001385492604507661_016_00006594551013351894_116_00008915050118582778_016_00006763291142240996_116_00003338886116348349_015_00000816496580927726_0,
  017_00039750346456326807_117_00020595014605633308_117_00032227615465444864_116_00001892884840653836_016_00007077504765890371_116_00003338886116348349_015_00000816496580927726_0,
  016_00003475074309356185_117_00020595014605633308_116_00007908297086495032_016_00011348912540583593_016_00007391718389539748_116_00003338886116348349_115_00001224744871391589_0,
  017_00039750346456326807_117_00020595014605633308_117_00043383652465327116_016_00004326747262654651_016_00007863038825013812_116_00003338886116348349_015_00000816496580927726_0,
  016_00003475074309356185_117_00027335103166186175_116_00008410318751489733_016_00011148279246928485_016_00008177252448663187_116_00003338886116348349_115_00001224744871391589_0,
  016_00003475074309356185_117_00020595014605633308_116_00001772476736559794_016_00012452395655686714_016_00008648572884137251_116_00003338886116348349_015_00000816496580927726_0,
  016_00003475074309356185_117_00027335103166186175_116_00006569572646509162_016_00009844162838170248_016_00008962786507786628_116_00003338886116348349_115_00001224744871391589_0,
  017_00039750346456326807_117_00020595014605633308_116_00015661742801413194_015_00001496031182637562_016_00009434106943260692_116_00003338886116348349_115_00001224744871391589_0,
  017_00039750346456326807_117_00020595014605633308_117_00031669813615450754_117_00009900350192058306_016_00009905427378734756_116_00003338886116348349_115_00001224744871391589_0,
  016_00003475074309356185_117_00027335103166186175_116_00007573615976498564_016_00011348912540583593_015_00001037674781420882_016_00029950108064592316_115_00001224744871391589_0,
  017_00039750346456326807_117_00020595014605633308_116_00009247021526480902_016_00005430230377757772_015_00001116228187333226_116_00003338886116348349_015_00000816496580927726_0,
  017_00044749949819088924_117_00020595014605633308_117_00043941454315321227_017_00021197810324484165_016_00011476495496981636_116_00003338886116348349_015_00000816496580927726_0,
  017_00039750346456326807_117_00020595014605633308_015_00001183788840329655_116_00012125182817064584_015_00001179070912063101_116_00003338886116348349_115_00001224744871391589_0,
  017_00039750346456326807_117_00027335103166186175_018_00040295047841724455_017_00023204143261035248_016_00012262029556105076_116_00003338886116348349_115_00001224744871391589_0,
  017_00039750346456326807_117_00020595014605633308_016_00007877495268338351_116_00011824232876581913_015_00001273334999157914_116_00003338886116348349_115_00001224744871391589_0,
  017_00044749949819088924_117_00020595014605633308_116_00008075637641493265_016_00008840996369894685_016_00013204670427053204_116_00003338886116348349_115_00001224744871391589_0,
  016_00003475074309356185_117_00027335103166186175_016_00015128919318261815_115_00001403119910678815_016_00013675990862527267_116_00003338886116348349_015_00000816496580927726_0,
  016_00003475074309356185_116_00003407519172674287_116_00003334321916543309_116_00005504284126445864_016_00013990204486176645_116_00003338886116348349_015_00000816496580927726_0,
  017_00044749949819088924_117_00020595014605633308_116_00006011770796515049_017_00014175645046555194_015_00001430441810982602_116_00003338886116348349_015_00000816496580927726_0,
  017_00044749949819088924_117_00020595014605633308_015_00004552912014294095_116_00025667930138784687_016_00014618631733475396_116_00003338886116348349_015_00000816496580927726_0,
  016_00003475074309356185_117_00027335103166186175_015_00002550403372815231_115_00002025083121009664_016_00014932845357124773_116_00003338886116348349_115_00001224744871391589_1,
  016_00003475074309356185_116_00003407519172674287_117_00043383652465327116_016_00009944479484997806_116_00016959837443286896_116_00003338886116348349_015_00000816496580927726_0,
  016_00003475074309356185_116_00003407519172674287_015_00002611761576314583_114_00000203511478569242_116_00016645623819637518_016_00029950108064592316_115_00001224744871391589_0,
  016_00003475074309356185_117_00027335103166186175_117_00018840371065586167_116_00005103017539135641_116_00015860089760514078_116_00003338886116348349_015_00000816496580927726_0,
  016_00003475074309356185_117_00027335103166186175_015_00002154364059319411_116_00019548614682303749_116_00015545876136864702_016_00029950108064592316_115_00001224744871391589_0,
  016_00003475074309356185_116_00003407519172674287_014_00000046422445383725_116_00009516949999548118_116_00014760342077741262_116_00003338886116348349_115_00001224744871391589_0,
  016_00003475074309356185_116_00003407519172674287_016_00002968838988390162_116_00011021699701961463_114_00000142890216422672_116_00003338886116348349_015_00000816496580927726_0,
  016_00003475074309356185_116_00003407519172674287_016_00017360126718238265_116_00015535948809201496_116_00013974808018617824_116_00003338886116348349_015_00000816496580927726_0,
  016_00003475074309356185_116_00003407519172674287_117_00038363435815380104_016_00008740679723067134_116_00013660594394968446_116_00003338886116348349_115_00001224744871391589_0,
  016_00003475074309356185_116_00003407519172674287_116_00005230848206523292_016_00006433396846033335_116_00013189273959494383_116_00003338886116348349_115_00001224744871391589_0,
  016_00003475074309356185_116_00003407519172674287_016_00008156396193335408_116_00008915050118582778_116_00012717953524020318_116_00003338886116348349_015_00000816496580927726_0,
  016_00003475074309356185_116_00003407519172674287_016_00007152352863346005_116_00009516949999548118_116_00012403739900370943_016_00029950108064592316_115_00001224744871391589_0,
  016_00003475074309356185_116_00003407519172674287_017_00021879163983984046_117_00046014343049978595_116_00011618205841247502_116_00003338886116348349_015_00000816496580927726_0,
  016_00002975113973079973_116_00004081528028729957_016_00008491077303331875_116_00012024866170237025_116_00011303992217598127_016_00029950108064592316_115_00001224744871391589_0,
  016_00003475074309356185_116_00003407519172674287_115_00000556552931651976_015_00000382516402851687_116_00010518458158474686_116_00003338886116348349_115_00001224744871391589_0,
  017_00039750346456326807_117_00027335103166186175_116_00007517835791499152_117_00012909849596884967_116_00010047137723000623_116_00003338886116348349_115_00001224744871391589_0,
  017_00039750346456326807_117_00027335103166186175_117_00022744984015544953_016_00005831496965067996_116_00009575817287526558_116_00003338886116348349_015_00000816496580927726_0,
  017_00039750346456326807_116_00003407519172674287_117_00032227615465444864_017_00045273805563097663_116_00009261603663877183_116_00003338886116348349_115_00001224744871391589_0,
  016_00003475074309356185_116_00004081528028729957_017_00028014984333919285_116_00005002700892308083_116_00008790283228403118_116_00003338886116348349_115_00001224744871391589_0,
  016_00003475074309356185_116_00003407519172674287_116_00004003684136536244_016_00004326747262654651_116_00008318962792929054_116_00003338886116348349_015_00000816496580927726_0,
  016_00002975113973079973_116_00004081528028729957_016_00006427210458353659_116_00007209667122514325_116_00008004749169279678_116_00003338886116348349_015_00000816496580927726_0,
  016_00003475074309356185_116_00003407519172674287_116_00001716696551560383_118_00008718519775782523_116_00007690535545630302_116_00003338886116348349_015_00000816496580927726_0,
  016_00003475074309356185_117_00027335103166186175_115_00000556552931651976_016_00003022630853896422_116_00007376321921980926_116_00003338886116348349_115_00001224744871391589_0,
  016_00003475074309356185_116_00003407519172674287_016_00008546857488331286_116_00009717583293203229_116_00006905001486506862_116_00003338886116348349_015_00000816496580927726_0,
  016_00003475074309356185_116_00003407519172674287_015_00001669076449824533_116_00015134682221891271_116_00006590787862857486_116_00003338886116348349_115_00001224744871391589_0,
  016_00002975113973079973_117_00047555368847852436_017_00034708606533848635_018_00021376474272484798_116_00006119467427383422_116_00003338886116348349_015_00000816496580927726_0,
  016_00002975113973079973_116_00004081528028729957_116_00009470142266478546_016_00011649862481066267_116_00005805253803734046_116_00003338886116348349_015_00000816496580927726_0,
  016_00002975113973079973_116_00004081528028729957_116_00012649612811444988_016_00005229597084102664_115_00000549104018008467_116_00003338886116348349_115_00001224744871391589_0,
  016_00002975113973079973_116_00004081528028729957_116_00003947903951536833_016_00004126113968999543_116_00005019719744610606_116_00003338886116348349_015_00000816496580927726_0,
  016_00002975113973079973_116_00004081528028729957_116_00004840386911527413_117_00005887684318956068_115_00000470550612096123_116_00003338886116348349_115_00001224744871391589_0,
  016_00003475074309356185_116_00003407519172674287_116_00008131417826492676_016_00003925480675344427_117_00042341856854871657_116_00003338886116348349_115_00001224744871391589_0,
  016_00002975113973079973_116_00004081528028729957_116_00005955990611515638_017_00042264306158271003_117_00037628652500131016_116_00003338886116348349_115_00001224744871391589_0,
  016_00002975113973079973_117_00047555368847852436_117_00016051361815615603_016_00006032130258723112_117_00032915448145390375_116_00003338886116348349_115_00001224744871391589_0,
  016_00002975113973079973_116_00004081528028729957_117_00009915541465680366_117_00027957346621018414_117_00028202243790649734_116_00003338886116348349_115_00001224744871391589_0,
  016_00002475153636803477_116_00004081528028729957_116_00009972163931473248_016_00006232763552378227_117_00023489039435909095_016_00029950108064592316_115_00001224744871391589_0,
  016_00002475153636803477_117_00047555368847852436_016_00019089312453220013_116_00014532782340925934_117_00015633698844674693_116_00003338886116348349_115_00001224744871391589_0,
  017_00019751933005269812_117_00047555368847852436_116_00007015814126504452_015_00001034574607230803_117_00010920494489934053_116_00003338886116348349_015_00000816496580927726_0,
  016_00002475153636803477_116_00004081528028729957_016_00005757848238360724_117_00037989011303774045_117_00007778358253440293_016_00029950108064592316_115_00001224744871391589_0,
  016_00002475153636803477_116_00003407519172674287_018_00017982973841959956_117_00014916182533436123_019_00007698233779410749_116_00003338886116348349_015_00000816496580927726_0,
  017_00019751933005269812_116_00003407519172674287_116_00005119287836524469_117_00006890850787231645_017_00003219118574287868_116_00003338886116348349_015_00000816496580927726_0,
  017_00019751933005269812_116_00004081528028729957_117_00004895324815733354_017_00004143980363799563_017_00006361254810781627_016_00029950108064592316_115_00001224744871391589_0,
  016_00002475153636803477_116_00003407519172674287_016_00014292216543270646_116_00012325816110719694_016_00001421659540201603_116_00003338886116348349_015_00000816496580927726_0,
  016_00002975113973079973_117_00027335103166186175_116_00013876776881432036_015_00001746822799706453_016_00001735873163850979_116_00003338886116348349_015_00000816496580927726_0,
  016_00002975113973079973_117_00020595014605633308_016_00005590507683362491_116_00009617266646375675_016_00002050086787500355_116_00003338886116348349_015_00000816496580927726_0,
  016_00003475074309356185_116_00001385492604507661_016_00003191959728387807_116_00008513783531272554_016_00002364300411149731_116_00003338886116348349_015_00000816496580927726_0,
  016_00002975113973079973_116_00001385492604507661_116_00004673046356529179_016_00008038463195274238_016_00002678514034799107_116_00003338886116348349_015_00000816496580927726_0,
  016_00002975113973079973_116_00001385492604507661_016_00006706111383350716_115_00001112201634878902_016_00002992727658448483_116_00003338886116348349_115_00001224744871391589_0,
  016_00002975113973079973_116_00001385492604507661_117_00003779721115745129_015_00000252104761975864_016_00003464048093922547_116_00003338886116348349_115_00001224744871391589_0,
  016_00002975113973079973_116_00001385492604507661_117_00020513776615568505_017_00024207309729310825_016_00003935368529396611_116_00003338886116348349_015_00000816496580927726_0,
  016_00002975113973079973_116_00001385492604507661_016_00008323736748333642_116_00011422966289271685_016_00004249582153045987_116_00003338886116348349_015_00000816496580927726_0,
  016_00002475153636803477_117_00020595014605633308_116_00011031987446462062_016_00010947645953273368_016_00004563795776695363_116_00003338886116348349_115_00001224744871391589_0,
  016_00002475153636803477_117_00020595014605633308_016_00008156396193335408_116_00010620433114651238_016_00005035116212169427_116_00003338886116348349_115_00001224744871391589_0,
  016_00002475153636803477_116_00001385492604507661_116_00009414362081479135_016_00015963478294651186_016_00005506436647643491_116_00003338886116348349_115_00001224744871391589_0,
  016_00002475153636803477_116_00001385492604507661_117_00043383652465327116_015_00001255271230251427_016_00005977757083117555_116_00003338886116348349_015_00000816496580927726_0,
  016_00002475153636803477_116_00001385492604507661_017_00006260712184148895_116_00002595101368446733_016_00006291970706766932_116_00003338886116348349_015_00000816496580927726_0,
  016_00002475153636803477_116_00001385492604507661_116_00001716696551560383_117_00021938347811365091_016_00006606184330416307_116_00003338886116348349_115_00001224744871391589_0,
  016_00002475153636803477_116_00001385492604507661_116_00010808866706464417_015_00002278501027892502_016_00007077504765890371_116_00003338886116348349_015_00000816496580927726_0,
  016_00002475153636803477_117_00020595014605633308_016_00004307563428376032_116_00005504284126445864_016_00007391718389539748_116_00003338886116348349_015_00000816496580927726_0,
  016_00002475153636803477_117_00020595014605633308_116_00008019857456493854_015_00002107962728285656_016_00007705932013189124_116_00003338886116348349_015_00000816496580927726_0]

/-- lr/data.csv 3002-3101 -/
def dataCsv30 : List ℕ := [
  016_00002475153636803477_116_00001385492604507661_116_00011980250591452053_014_00000329169916085082_016_00008020145636838499_016_00029950108064592316_115_00001224744871391589_1,
  016_00002475153636803477_116_00001385492604507661_116_00005230848206523292_016_00003925480675344427_015_00000880567969596194_116_00003338886116348349_015_00000816496580927726_0,
  016_00002475153636803477_116_00001385492604507661_017_00009049721434119458_117_00010903516660333884_016_00009119893319611315_116_00003338886116348349_115_00001224744871391589_0,
  016_00002975113973079973_117_00007114837484523745_116_00005007727466525647_017_00024207309729310825_016_00009591213755085379_116_00003338886116348349_115_00001224744871391589_0,
  016_00002475153636803477_117_00007114837484523745_116_00004059464321535655_016_00013254928830307169_016_00010062534190559445_116_00003338886116348349_115_00001224744871391589_0,
  016_00002475153636803477_117_00007114837484523745_116_00001995597476557439_116_00002595101368446733_016_00010533854626033508_116_00003338886116348349_015_00000816496580927726_0,
  017_00019751933005269812_117_00020595014605633308_116_00002832300251548608_117_00043004843645151863_016_00010848068249682883_116_00003338886116348349_015_00000816496580927726_0,
  017_00019751933005269812_117_00020595014605633308_116_00012538052441446166_015_00001024542942548048_015_00001116228187333226_116_00003338886116348349_015_00000816496580927726_0,
  017_00019751933005269812_117_00020595014605633308_017_00004587306634166558_116_00001993201487481394_016_00011476495496981636_116_00003338886116348349_115_00001224744871391589_0,
  017_00019751933005269812_117_00020595014605633308_116_00004059464321535655_118_00018750184458538297_014_00000119478159324557_116_00003338886116348349_115_00001224744871391589_0,
  017_00014752329642507697_117_00027335103166186175_118_00009907118657745668_117_00028960513089293993_016_00012419136367929764_116_00003338886116348349_015_00000816496580927726_0,
  017_00009752726279742736_116_00003407519172674287_116_00005844430241516816_016_00011549545834238708_015_00001273334999157914_116_00003338886116348349_115_00001224744871391589_0,
  017_00019751933005269812_117_00027335103166186175_116_00005955990611515638_016_00004728013849964882_016_00013204670427053204_116_00003338886116348349_015_00000816496580927726_0,
  016_00002475153636803477_117_00027335103166186175_115_00000829875838149091_016_00008439729782584461_015_00001351888405070258_116_00003338886116348349_015_00000816496580927726_0,
  016_00002475153636803477_117_00020595014605633308_016_00002299476768397227_017_00028219975602413067_016_00013833097674351955_116_00003338886116348349_015_00000816496580927726_0,
  016_00002475153636803477_117_00020595014605633308_017_00028014984333919285_116_00009516949999548118_016_00014147311298001333_116_00003338886116348349_015_00000816496580927726_0,
  016_00002475153636803477_116_00001385492604507661_116_00005453968946520936_016_00008840996369894685_016_00014461524921650708_116_00003338886116348349_015_00000816496580927726_0,
  016_00002475153636803477_116_00001385492604507661_116_00013040074106440867_016_00011750179127893825_016_00014775738545300083_116_00003338886116348349_015_00000816496580927726_0,
  016_00002475153636803477_116_00001385492604507661_017_00015185541784054696_117_00040998510708600777_015_00001508995216894946_116_00003338886116348349_115_00001224744871391589_0,
  016_00002475153636803477_116_00001385492604507661_116_00008912340416484434_016_00014258095298582731_016_00015561272604423524_116_00003338886116348349_015_00000816496580927726_1,
  017_00019751933005269812_117_00027335103166186175_018_00023560992341901083_116_00001892884840653836_014_00000158754862280729_116_00003338886116348349_015_00000816496580927726_0,
  016_00002475153636803477_116_00001385492604507661_116_00006569572646509162_015_00000964352954451514_016_00016189699851722277_116_00003338886116348349_015_00000816496580927726_0,
  016_00002475153636803477_117_00027335103166186175_015_00001233991006829125_116_00009416633352720559_016_00016503913475371652_116_00003338886116348349_015_00000816496580927726_0,
  017_00019751933005269812_116_00003407519172674287_016_00009606681003320101_115_00001082106640830635_016_00016818127099021027_116_00003338886116348349_015_00000816496580927726_0,
  016_00002475153636803477_117_00027335103166186175_116_00004115244506535067_016_00001618197798310635_016_00017132340722670405_116_00003338886116348349_015_00000816496580927726_0,
  016_00002475153636803477_117_00027335103166186175_115_00000963748282147678_015_00001024542942548048_015_00001744655434631978_116_00003338886116348349_015_00000816496580927726_0,
  017_00019751933005269812_116_00003407519172674287_016_00019479773748215892_116_00018144181626717961_016_00017760767969969156_116_00003338886116348349_115_00001224744871391589_0,
  016_00002475153636803477_116_00003407519172674287_016_00013288173213281242_114_00000164387986306495_116_00016959837443286896_116_00003338886116348349_015_00000816496580927726_0,
  016_00002475153636803477_116_00003407519172674287_116_00008912340416484434_015_00001566252835416852_116_00016645623819637518_116_00003338886116348349_015_00000816496580927726_0,
  017_00019751933005269812_116_00003407519172674287_117_00007684334065703917_016_00011348912540583593_116_00016331410195988143_116_00003338886116348349_015_00000816496580927726_0,
  017_00019751933005269812_117_00027335103166186175_017_00013512136234072358_116_00006005867360583647_116_00016017196572338768_116_00003338886116348349_115_00001224744871391589_0,
  016_00002475153636803477_117_00020595014605633308_116_00008354538566490322_016_00003323580794379088_116_00015545876136864702_116_00003338886116348349_115_00001224744871391589_0,
  016_00002975113973079973_116_00001385492604507661_116_00005119287836524469_016_00002922314207068864_115_00001507455570139064_116_00003338886116348349_115_00001224744871391589_0,
  016_00002975113973079973_117_00020595014605633308_016_00022045662258188807_116_00017241331805269953_116_00014603235265916574_116_00003338886116348349_115_00001224744871391589_0,
  016_00002975113973079973_117_00020595014605633308_117_00038363435815380104_015_00000382516402851687_116_00014131914830442511_016_00029950108064592316_115_00001224744871391589_0,
  016_00002975113973079973_117_00020595014605633308_116_00006179111351513282_016_00002621364266586198_115_00001334638077131907_116_00003338886116348349_115_00001224744871391589_0,
  017_00019751933005269812_117_00027335103166186175_115_00001225915151644911_016_00008138779842101795_116_00012875060335845006_116_00003338886116348349_015_00000816496580927726_0,
  016_00002475153636803477_117_00020595014605633308_015_00001942399356321648_116_00015736582102856609_115_00001256084671219563_116_00003338886116348349_015_00000816496580927726_0,
  017_00019751933005269812_116_00003407519172674287_115_00001058574596646677_016_00010446062719135587_116_00012246633088546255_116_00003338886116348349_015_00000816496580927726_0,
  017_00014752329642507697_116_00003407519172674287_016_00007040792493347183_116_00008614100178100111_116_00011932419464896877_116_00003338886116348349_115_00001224744871391589_0,
  017_00014752329642507697_116_00003407519172674287_117_00036132228415403655_117_00012909849596884967_116_00011461099029422814_116_00003338886116348349_015_00000816496580927726_0,
  017_00019751933005269812_116_00003407519172674287_018_00023560992341901083_117_00010903516660333884_115_00001114688540577344_116_00003338886116348349_015_00000816496580927726_0,
  017_00009752726279742736_116_00004081528028729957_117_00044499256165315343_016_00003925480675344427_116_00010832671782124061_116_00003338886116348349_115_00001224744871391589_0,
  017_00014752329642507697_116_00003407519172674287_017_00006818514034143008_117_00020935181343089515_116_00010361351346649998_116_00003338886116348349_015_00000816496580927726_0,
  017_00009752726279742736_116_00004081528028729957_016_00024667330953161137_116_00018645764860855742_116_00010047137723000623_116_00003338886116348349_015_00000816496580927726_0,
  017_00009752726279742736_116_00004081528028729957_117_00007126532215709803_116_00004701750951825417_116_00009732924099351247_116_00003338886116348349_015_00000816496580927726_0,
  017_00009752726279742736_116_00004081528028729957_117_00021071578465562615_019_00013131449069732513_115_00000941871047570187_116_00003338886116348349_115_00001224744871391589_0,
  017_00009752726279742736_116_00004081528028729957_017_00010723126984101795_117_00016922515469987276_116_00008947390040227806_116_00003338886116348349_015_00000816496580927726_0,
  017_00009752726279742736_117_00047555368847852436_117_00003779721115745129_016_00003223264147551537_115_00000863317641657843_116_00003338886116348349_015_00000816496580927726_0,
  016_00000475312291698062_116_00005429545740840913_115_00001186869022145323_016_00015963478294651186_116_00008318962792929054_116_00003338886116348349_015_00000816496580927726_0,
  017_00009752726279742736_116_00005429545740840913_116_00006011770796515049_016_00011348912540583593_116_00008004749169279678_116_00003338886116348349_015_00000816496580927726_0,
  017_00009752726279742736_117_00047555368847852436_115_00000963748282147678_016_00009342579604032467_116_00007690535545630302_116_00003338886116348349_015_00000816496580927726_0,
  016_00000475312291698062_116_00005429545740840913_116_00006569572646509162_015_00000252104761975864_116_00007376321921980926_116_00003338886116348349_015_00000816496580927726_0,
  017_00009752726279742736_117_00047555368847852436_117_00018282569215592054_117_00044008010113427437_115_00000706210829833155_016_00029950108064592316_115_00001224744871391589_0,
  017_00009752726279742736_117_00047555368847852436_115_00001097620726146265_016_00008740679723067134_115_00000627657423920811_016_00029950108064592316_115_00001224744871391589_0,
  016_00000475312291698062_116_00005429545740840913_116_00006234891536512694_117_00023944680747916175_115_00000549104018008467_116_00003338886116348349_015_00000816496580927726_0,
  017_00009752726279742736_116_00005429545740840913_016_00007152352863346005_116_00010118849880513456_116_00005176826556435293_116_00003338886116348349_015_00000816496580927726_0,
  016_00000475312291698062_114_00000061035545968962_116_00007740956531496798_016_00006734346786516008_117_00048626129327859174_116_00003338886116348349_015_00000816496580927726_0,
  118_00002464804457843392_115_00000677756345295187_016_00009495120633321278_116_00007911883650307214_117_00045483993091365416_116_00003338886116348349_015_00000816496580927726_0,
  118_00002464804457843392_115_00000677756345295187_116_00009525922451477957_016_00005831496965067996_117_00042341856854871657_116_00003338886116348349_115_00001224744871391589_0,
  118_00002464804457843392_114_00000061035545968962_016_00019145092638219425_115_00001623816533699439_117_00037628652500131016_116_00003338886116348349_015_00000816496580927726_0,
  016_00000475312291698062_114_00000061035545968962_116_00010362625226469127_016_00018772344405822765_117_00034486516263637257_116_00003338886116348349_015_00000816496580927726_0,
  117_00005246083808549298_115_00000677756345295187_017_00007934117734131232_019_00013131449069732513_115_00000313443800271435_116_00003338886116348349_015_00000816496580927726_0,
  118_00002464804457843392_114_00000061035545968962_116_00006011770796515049_016_00005430230377757772_117_00028202243790649734_116_00003338886116348349_015_00000816496580927726_0,
  016_00000475312291698062_114_00000061035545968962_016_00010722284703308325_116_00009617266646375675_117_00025060107554155975_116_00003338886116348349_115_00001224744871391589_0,
  016_00000475312291698062_116_00005429545740840913_016_00008267956563334231_116_00012325816110719694_117_00020346903199415334_116_00003338886116348349_115_00001224744871391589_0,
  016_00000475312291698062_116_00005429545740840913_117_00045614859865303564_016_00004326747262654651_117_00015633698844674693_116_00003338886116348349_115_00001224744871391589_0,
  016_00000475312291698062_116_00005429545740840913_118_00032219192657510165_117_00029963679557569567_117_00010920494489934053_116_00003338886116348349_015_00000816496580927726_0,
  118_00002464804457843392_115_00000677756345295187_014_00000046422445383725_116_00008212833590789884_117_00007778358253440293_016_00029950108064592316_115_00001224744871391589_0,
  118_00002464804457843392_114_00000061035545968962_013_00000014069095803273_116_00011824232876581913_019_00007698233779410749_116_00003338886116348349_015_00000816496580927726_0,
  118_00002464804457843392_114_00000061035545968962_014_00000051442662033672_116_00011723916229754356_017_00003219118574287868_116_00003338886116348349_015_00000816496580927726_0,
  118_00002464804457843392_115_00000677756345295187_016_00035432906658047507_116_00023160013968095776_017_00006361254810781627_116_00003338886116348349_015_00000816496580927726_0,
  016_00000475312291698062_115_00000677756345295187_116_00012538052441446166_016_00018270761171684984_017_00009503391047275388_116_00003338886116348349_015_00000816496580927726_0,
  016_00000475312291698062_114_00000061035545968962_115_00000339010210154272_016_00006934980080171117_017_00012645527283769148_116_00003338886116348349_015_00000816496580927726_0,
  016_00000475312291698062_116_00005429545740840913_015_00001362285432327771_115_00001272708269802992_016_00001578766352026291_116_00003338886116348349_015_00000816496580927726_0,
  016_00000475312291698062_116_00005429545740840913_116_00008577659306487967_016_00006132446905550669_017_00018929799756756668_116_00003338886116348349_115_00001224744871391589_0,
  118_00002464804457843392_116_00005429545740840913_116_00005286628391522703_016_00003624530734861761_016_00002364300411149731_116_00003338886116348349_015_00000816496580927726_0,
  016_00000475312291698062_117_00047555368847852436_016_00016858105053243564_115_00001704069851161484_016_00002678514034799107_116_00003338886116348349_015_00000816496580927726_0,
  016_00000475312291698062_116_00004081528028729957_115_00001058574596646677_016_00016264428235133859_016_00002992727658448483_116_00003338886116348349_115_00001224744871391589_0,
  016_00000475312291698062_117_00047555368847852436_116_00011087767631461474_016_00016063794941478742_016_00003464048093922547_116_00003338886116348349_015_00000816496580927726_0,
  117_00005246083808549298_116_00005429545740840913_019_00012489183421365824_016_00003223264147551537_016_00003778261717571923_116_00003338886116348349_115_00001224744871391589_0,
  118_00002464804457843392_117_00047555368847852436_016_00021934101888189987_116_00018244498273545515_016_00004249582153045987_116_00003338886116348349_115_00001224744871391589_0,
  118_00002464804457843392_117_00047555368847852436_116_00007350495236500919_016_00003925480675344427_016_00004720902588520051_116_00003338886116348349_115_00001224744871391589_0,
  016_00000475312291698062_117_00047555368847852436_016_00009662461188319512_116_00011523282936099244_016_00005192223023994115_116_00003338886116348349_015_00000816496580927726_0,
  016_00000475312291698062_116_00004081528028729957_116_00011701349666454997_016_00015261261766858294_016_00005506436647643491_016_00029950108064592316_115_00001224744871391589_0,
  016_00000475312291698062_116_00005429545740840913_116_00005453968946520936_016_00002922314207068864_016_00006291970706766932_116_00003338886116348349_015_00000816496580927726_0,
  118_00002464804457843392_116_00005429545740840913_016_00003972882318379565_116_00007911883650307214_016_00006606184330416307_116_00003338886116348349_015_00000816496580927726_0,
  118_00002464804457843392_114_00000061035545968962_117_00036132228415403655_016_00005229597084102664_016_00006920397954065683_116_00003338886116348349_115_00001224744871391589_0,
  118_00002464804457843392_114_00000061035545968962_016_00004753804908371322_116_00009216000059065448_016_00007391718389539748_116_00003338886116348349_115_00001224744871391589_0,
  016_00000475312291698062_117_00047555368847852436_117_00010473343315674478_117_00017925681938262783_016_00007863038825013812_016_00029950108064592316_115_00001224744871391589_0,
  016_00000475312291698062_117_00047555368847852436_116_00005063507651525058_016_00005831496965067996_016_00008648572884137251_016_00029950108064592316_115_00001224744871391589_0,
  118_00002464804457843392_117_00047555368847852436_017_00010723126984101795_116_00010319483174168569_016_00009434106943260692_116_00003338886116348349_015_00000816496580927726_0,
  118_00002464804457843392_117_00047555368847852436_015_00004207074867297745_116_00023761913849061114_016_00009748320566910068_116_00003338886116348349_115_00001224744871391589_0,
  118_00002464804457843392_117_00047555368847852436_116_00007908297086495032_016_00011248595893756042_016_00010219641002384132_116_00003338886116348349_015_00000816496580927726_0,
  118_00002464804457843392_117_00047555368847852436_015_00002416530928816644_116_00018043864979890403_016_00010533854626033508_116_00003338886116348349_015_00000816496580927726_0,
  117_00005246083808549298_116_00005429545740840913_017_00019647956584007595_117_00034979511898947385_016_00010848068249682883_116_00003338886116348349_115_00001224744871391589_0,
  117_00005246083808549298_116_00005429545740840913_017_00011838730684090021_117_00010903516660333884_016_00011319388685156948_116_00003338886116348349_015_00000816496580927726_0,
  117_00005246083808549298_116_00005429545740840913_116_00010362625226469127_016_00009844162838170248_016_00011633602308806323_116_00003338886116348349_115_00001224744871391589_0,
  117_00005246083808549298_116_00005429545740840913_116_00008354538566490322_016_00011248595893756042_016_00012104922744280389_116_00003338886116348349_115_00001224744871391589_0,
  117_00005246083808549298_114_00000061035545968962_117_00014377956265633265_015_00000382516402851687_016_00012576243179754452_116_00003338886116348349_115_00001224744871391589_0]

/-- lr/data.csv 3102-3201 -/
def dataCsv31 : List ℕ := [
  117_00010245687171311416_114_00000061035545968962_017_00021879163983984046_017_00021197810324484165_016_00013047563615228517_116_00003338886116348349_015_00000816496580927726_0,
  117_00010245687171311416_115_00000677756345295187_116_00004003684136536244_117_00026954180152742907_016_00013361777238877892_016_00029950108064592316_115_00001224744871391589_0,
  117_00005246083808549298_114_00000061035545968962_116_00007071594311503863_016_00008339413135756903_016_00014147311298001333_116_00003338886116348349_015_00000816496580927726_0,
  117_00010245687171311416_114_00000061035545968962_016_00007208133048345416_116_00009717583293203229_016_00014461524921650708_116_00003338886116348349_015_00000816496580927726_0,
  117_00010245687171311416_116_00005429545740840913_016_00007765934898339529_115_00001021916652734101_016_00014775738545300083_116_00003338886116348349_115_00001224744871391589_0,
  117_00010245687171311416_114_00000061035545968962_016_00004084442688378387_117_00046014343049978595_016_00015247058980774149_116_00003338886116348349_015_00000816496580927726_0,
  117_00010245687171311416_114_00000061035545968962_117_00029996408065468416_118_00008718519775782523_016_00015561272604423524_116_00003338886116348349_015_00000816496580927726_0,
  117_00010245687171311416_114_00000061035545968962_116_00004617266171529768_117_00005887684318956068_014_00000158754862280729_116_00003338886116348349_115_00001224744871391589_0,
  117_00010245687171311416_116_00005429545740840913_117_00019398172915580278_117_00012909849596884967_016_00016346806663546964_116_00003338886116348349_015_00000816496580927726_0,
  117_00005246083808549298_116_00005429545740840913_116_00002664959696550374_016_00004326747262654651_015_00001666102028719634_116_00003338886116348349_015_00000816496580927726_0,
  117_00005246083808549298_116_00005429545740840913_117_00007684334065703917_116_00006808400535204094_116_00016959837443286896_016_00029950108064592316_115_00001224744871391589_0,
  118_00002464804457843392_116_00005429545740840913_015_00001228412988329184_116_00012125182817064584_116_00016174303384163455_116_00003338886116348349_015_00000816496580927726_0,
  117_00010245687171311416_114_00000061035545968962_116_00010251064856470304_015_00001676601146927164_116_00015860089760514078_116_00003338886116348349_115_00001224744871391589_0,
  117_00005246083808549298_114_00000061035545968962_116_00010808866706464417_015_00001686632811609919_116_00015388769325040015_116_00003338886116348349_115_00001224744871391589_0,
  117_00005246083808549298_116_00005429545740840913_016_00008044835823336586_116_00009516949999548118_115_00001491744888956595_116_00003338886116348349_115_00001224744871391589_0,
  117_00005246083808549298_116_00005429545740840913_016_00006650331198351305_116_00005203334185963199_116_00014446128454091887_116_00003338886116348349_015_00000816496580927726_0,
  118_00002464804457843392_116_00005429545740840913_017_00015185541784054696_116_00005604600773273423_116_00014131914830442511_116_00003338886116348349_015_00000816496580927726_0,
  016_00000475312291698062_117_00047555368847852436_117_00038921237665374214_016_00003925480675344427_116_00013817701206793134_116_00003338886116348349_115_00001224744871391589_0,
  017_00009752726279742736_116_00003407519172674287_117_00045057058015309454_016_00006934980080171117_115_00001334638077131907_116_00003338886116348349_115_00001224744871391589_0,
  016_00000475312291698062_116_00004081528028729957_016_00017806368198233555_114_00000164387986306495_116_00012875060335845006_116_00003338886116348349_015_00000816496580927726_0,
  016_00000475312291698062_116_00004081528028729957_017_00013512136234072358_017_00008156646236901802_115_00001256084671219563_016_00029950108064592316_115_00001224744871391589_0,
  016_00000475312291698062_116_00004081528028729957_015_00003359216055306694_116_00022156847499820214_115_00001177531265307219_116_00003338886116348349_015_00000816496580927726_0,
  118_00002464804457843392_117_00047555368847852436_117_00036690030265397766_016_00006032130258723112_116_00011461099029422814_116_00003338886116348349_015_00000816496580927726_0,
  118_00002464804457843392_116_00004081528028729957_117_00022744984015544953_117_00014916182533436123_115_00001114688540577344_016_00029950108064592316_115_00001224744871391589_0,
  016_00000475312291698062_116_00004081528028729957_016_00001630114548404292_118_00028781849141293357_116_00010361351346649998_116_00003338886116348349_015_00000816496580927726_0,
  016_00000475312291698062_116_00004081528028729957_015_00000865841785833011_116_00012626766051202365_116_00010047137723000623_116_00003338886116348349_015_00000816496580927726_0,
  118_00002464804457843392_116_00004081528028729957_117_00022187182165550842_117_00043004843645151863_116_00009732924099351247_116_00003338886116348349_015_00000816496580927726_0,
  118_00002464804457843392_116_00003407519172674287_016_00009941362113316569_116_00011723916229754356_115_00000941871047570187_116_00003338886116348349_015_00000816496580927726_0,
  016_00000475312291698062_116_00003407519172674287_117_00042825850615333005_017_00028219975602413067_116_00009104496852052494_116_00003338886116348349_115_00001224744871391589_0,
  016_00000475312291698062_117_00027335103166186175_016_00005757848238360724_116_00005504284126445864_115_00000863317641657843_116_00003338886116348349_015_00000816496580927726_0,
  016_00000475312291698062_117_00027335103166186175_015_00001233991006829125_115_00001463309898775349_116_00008318962792929054_116_00003338886116348349_015_00000816496580927726_0,
  016_00000475312291698062_116_00003407519172674287_016_00006761891568350127_116_00007309983769341876_116_00008004749169279678_116_00003338886116348349_015_00000816496580927726_0,
  016_00000475312291698062_116_00003407519172674287_017_00010165325134107683_017_00006150313300350718_116_00007690535545630302_116_00003338886116348349_015_00000816496580927726_0,
  017_00009752726279742736_117_00027335103166186175_116_00005398188761521525_016_00009242262957204916_116_00007376321921980926_016_00029950108064592316_115_00001224744871391589_0,
  017_00009752726279742736_117_00027335103166186175_116_00010027944116472658_016_00011549545834238708_116_00006590787862857486_116_00003338886116348349_015_00000816496580927726_0,
  017_00019751933005269812_116_00001385492604507661_115_00001097620726146265_015_00001255271230251427_115_00000627657423920811_116_00003338886116348349_015_00000816496580927726_0,
  017_00019751933005269812_117_00007114837484523745_116_00005788650056517404_016_00014859995179548064_116_00005962360615558734_116_00003338886116348349_015_00000816496580927726_0,
  017_00019751933005269812_117_00007114837484523745_016_00001574334363404881_117_00034979511898947385_116_00005648146991909357_116_00003338886116348349_015_00000816496580927726_0,
  017_00019751933005269812_117_00007114837484523745_116_00009079680971482668_016_00003524214088034203_116_00005333933368259982_116_00003338886116348349_015_00000816496580927726_0,
  017_00019751933005269812_117_00007114837484523745_117_00014377956265633265_117_00012909849596884967_116_00005019719744610606_016_00029950108064592316_115_00001224744871391589_0,
  017_00019751933005269812_117_00007114837484523745_015_00005713139862281849_116_00027272996488025583_117_00042341856854871657_016_00029950108064592316_115_00001224744871391589_1,
  016_00002475153636803477_118_00003747489239670474_117_00009915541465680366_016_00005129280437275106_117_00034486516263637257_116_00003338886116348349_015_00000816496580927726_0,
  016_00002975113973079973_118_00003747489239670474_016_00006650331198351305_115_00000530365083279075_115_00000313443800271435_116_00003338886116348349_015_00000816496580927726_0,
  016_00002975113973079973_118_00003747489239670474_116_00006681133016507984_017_00024207309729310825_117_00028202243790649734_016_00029950108064592316_115_00001224744871391589_0,
  016_00002975113973079973_118_00003747489239670474_115_00000339010210154272_116_00003698584483549854_117_00020346903199415334_116_00003338886116348349_115_00001224744871391589_0,
  016_00002475153636803477_118_00003747489239670474_115_00000690425375650563_016_00003524214088034203_117_00015633698844674693_116_00003338886116348349_115_00001224744871391589_0,
  016_00002475153636803477_117_00007114837484523745_016_00013455513768279477_115_00001352961587265037_117_00010920494489934053_116_00003338886116348349_115_00001224744871391589_0,
  017_00019751933005269812_117_00020595014605633308_116_00005509749131520348_017_00028219975602413067_118_00062072901351934134_116_00003338886116348349_115_00001224744871391589_0,
  017_00019751933005269812_116_00001385492604507661_116_00005063507651525058_118_00028781849141293357_118_00014940857804527726_016_00029950108064592316_115_00001224744871391589_0,
  017_00019751933005269812_117_00020595014605633308_116_00002162938031555673_117_00048020675986529676_017_00006361254810781627_016_00029950108064592316_115_00001224744871391589_0,
  017_00019751933005269812_116_00001385492604507661_117_00014377956265633265_116_00007109350475686768_016_00001421659540201603_116_00003338886116348349_015_00000816496580927726_0,
  016_00002475153636803477_116_00001385492604507661_116_00006179111351513282_015_00000382516402851687_016_00001735873163850979_116_00003338886116348349_015_00000816496580927726_0,
  016_00002475153636803477_116_00001385492604507661_117_00036690030265397766_017_00023204143261035248_016_00002050086787500355_116_00003338886116348349_115_00001224744871391589_0,
  016_00002475153636803477_117_00007114837484523745_117_00031112011765456643_016_00009342579604032467_016_00002521407222974419_116_00003338886116348349_115_00001224744871391589_0,
  017_00019751933005269812_117_00020595014605633308_117_00002664117415756904_015_00000252104761975864_016_00002992727658448483_116_00003338886116348349_015_00000816496580927726_0,
  016_00002475153636803477_116_00001385492604507661_116_00009581702636477369_016_00014057462004927617_016_00003306941282097859_116_00003338886116348349_015_00000816496580927726_0,
  017_00019751933005269812_117_00020595014605633308_116_00004003684136536244_117_00030966846025845146_017_00036211549057472353_116_00003338886116348349_015_00000816496580927726_0,
  017_00019751933005269812_117_00020595014605633308_116_00002832300251548608_016_00002220097679275974_016_00003935368529396611_116_00003338886116348349_115_00001224744871391589_0,
  017_00019751933005269812_117_00020595014605633308_015_00000782171508333894_115_00000991821658685834_017_00044066889648706753_116_00003338886116348349_015_00000816496580927726_0,
  017_00019751933005269812_116_00001385492604507661_116_00007238934866502097_016_00007536879961136456_016_00004720902588520051_016_00029950108064592316_115_00001224744871391589_0,
  017_00019751933005269812_117_00020595014605633308_116_00009581702636477369_016_00011248595893756042_016_00005506436647643491_116_00003338886116348349_115_00001224744871391589_0,
  017_00019751933005269812_116_00001385492604507661_116_00012538052441446166_015_00002318627686623524_016_00005977757083117555_116_00003338886116348349_015_00000816496580927726_0,
  016_00002475153636803477_117_00007114837484523745_116_00003278541731543898_019_00013131449069732513_016_00006291970706766932_116_00003338886116348349_015_00000816496580927726_0,
  017_00019751933005269812_116_00001385492604507661_017_00005702910334154783_117_00010903516660333884_016_00006606184330416307_116_00003338886116348349_015_00000816496580927726_0,
  017_00019751933005269812_117_00020595014605633308_016_00008156396193335408_116_00008714416824927665_016_00006920397954065683_116_00003338886116348349_015_00000816496580927726_0,
  017_00019751933005269812_117_00027335103166186175_118_00015485137157686792_116_00005504284126445864_015_00000723461157771506_116_00003338886116348349_015_00000816496580927726_0,
  017_00019751933005269812_117_00020595014605633308_019_00012489183421365824_117_00022941514279640599_016_00007548825201364435_116_00003338886116348349_115_00001224744871391589_0,
  017_00019751933005269812_117_00020595014605633308_116_00008633439491487378_016_00005129280437275106_016_00008020145636838499_116_00003338886116348349_015_00000816496580927726_0,
  017_00019751933005269812_117_00027335103166186175_017_00041960030583772095_116_00009717583293203229_016_00008334359260487876_116_00003338886116348349_115_00001224744871391589_0,
  017_00019751933005269812_117_00027335103166186175_016_00007598594343341296_117_00045011176581703016_015_00000880567969596194_116_00003338886116348349_115_00001224744871391589_0,
  017_00019751933005269812_117_00020595014605633308_016_00008156396193335408_116_00007711250356652106_016_00009277000131436004_116_00003338886116348349_115_00001224744871391589_0,
  017_00019751933005269812_117_00027335103166186175_116_00008521879121488555_016_00016966644762926748_016_00009748320566910068_116_00003338886116348349_015_00000816496580927726_0,
  017_00014752329642507697_117_00027335103166186175_116_00002832300251548608_017_00013172478578279617_016_00010062534190559445_116_00003338886116348349_115_00001224744871391589_0,
  017_00014752329642507697_117_00027335103166186175_016_00004753804908371322_116_00007410300416169433_016_00010533854626033508_116_00003338886116348349_015_00000816496580927726_0,
  017_00014752329642507697_117_00027335103166186175_016_00003415080468385452_116_00005403967479618307_016_00010848068249682883_116_00003338886116348349_015_00000816496580927726_0,
  017_00014752329642507697_117_00027335103166186175_116_00003947903951536833_016_00004728013849964882_015_00001116228187333226_116_00003338886116348349_015_00000816496580927726_0,
  017_00014752329642507697_117_00027335103166186175_116_00005788650056517404_016_00005430230377757772_016_00011476495496981636_116_00003338886116348349_015_00000816496580927726_0,
  017_00009752726279742736_116_00003407519172674287_017_00014069938084066472_116_00006607767241548985_015_00001179070912063101_116_00003338886116348349_115_00001224744871391589_0,
  017_00009752726279742736_116_00004081528028729957_116_00011701349666454997_016_00013656195417617392_016_00012262029556105076_116_00003338886116348349_115_00001224744871391589_0,
  016_00000475312291698062_117_00047555368847852436_017_00017416749184031147_117_00031970012494120725_015_00001273334999157914_116_00003338886116348349_015_00000816496580927726_0,
  017_00009752726279742736_116_00004081528028729957_116_00005900210426516227_016_00008840996369894685_016_00013047563615228517_116_00003338886116348349_115_00001224744871391589_0,
  017_00009752726279742736_116_00004081528028729957_117_00006568730365715691_117_00029963679557569567_015_00001351888405070258_116_00003338886116348349_015_00000816496580927726_0,
  016_00000475312291698062_117_00047555368847852436_116_00005342408576522114_015_00001034574607230803_016_00013833097674351955_116_00003338886116348349_115_00001224744871391589_0,
  016_00000475312291698062_117_00047555368847852436_016_00004307563428376032_116_00008012200297134773_015_00001430441810982602_116_00003338886116348349_015_00000816496580927726_0,
  016_00000475312291698062_117_00047555368847852436_016_00006427210458353659_116_00009015366765410335_016_00014618631733475396_116_00003338886116348349_015_00000816496580927726_0,
  016_00000475312291698062_117_00047555368847852436_016_00008156396193335408_116_00012927715991685031_016_00014932845357124773_116_00003338886116348349_015_00000816496580927726_0,
  017_00009752726279742736_116_00004081528028729957_116_00004617266171529768_016_00008840996369894685_016_00015247058980774149_116_00003338886116348349_115_00001224744871391589_0,
  017_00009752726279742736_116_00004081528028729957_016_00011893668588295963_116_00012225499463892138_016_00015718379416248212_116_00003338886116348349_115_00001224744871391589_0,
  016_00000475312291698062_116_00005429545740840913_115_00000562130950151917_016_00011047962600100927_016_00016189699851722277_116_00003338886116348349_115_00001224744871391589_0,
  016_00000475312291698062_114_00000061035545968962_017_00006818514034143008_116_00006306817301066312_015_00001666102028719634_116_00003338886116348349_015_00000816496580927726_0,
  016_00000475312291698062_116_00005429545740840913_016_00003359300283386041_115_00000991821658685834_016_00016975233910845717_116_00003338886116348349_015_00000816496580927726_0,
  016_00000475312291698062_116_00005429545740840913_016_00010778064888307737_116_00006306817301066312_016_00017289447534495093_116_00003338886116348349_115_00001224744871391589_0,
  016_00000475312291698062_116_00005429545740840913_116_00006736913201507395_118_00018750184458538297_016_00017760767969969156_116_00003338886116348349_115_00001224744871391589_0,
  118_00002464804457843392_114_00000061035545968962_116_00007685176346497387_017_00045273805563097663_116_00016959837443286896_116_00003338886116348349_015_00000816496580927726_0,
  118_00002464804457843392_115_00000677756345295187_115_00000472882654152859_016_00011750179127893825_116_00016645623819637518_116_00003338886116348349_015_00000816496580927726_0,
  118_00002464804457843392_116_00005429545740840913_016_00005367386943364846_116_00007610933709824549_116_00016331410195988143_116_00003338886116348349_115_00001224744871391589_0,
  118_00002464804457843392_114_00000061035545968962_116_00002776520066549197_017_00003140813895523986_116_00015860089760514078_116_00003338886116348349_015_00000816496580927726_0,
  118_00002464804457843392_114_00000061035545968962_116_00004115244506535067_017_00006150313300350718_116_00015545876136864702_116_00003338886116348349_015_00000816496580927726_0,
  118_00002464804457843392_114_00000061035545968962_116_00004226804876533889_016_00005731180318240445_116_00015231662513215327_116_00003338886116348349_115_00001224744871391589_0,
  016_00000475312291698062_114_00000061035545968962_017_00011838730684090021_117_00046014343049978595_116_00014760342077741262_016_00029950108064592316_115_00001224744871391589_0]

/-- lr/data.csv 3202-3301 -/
def dataCsv32 : List ℕ := [
  016_00000475312291698062_116_00005429545740840913_115_00000472882654152859_016_00004427063909482209_116_00013974808018617824_116_00003338886116348349_115_00001224744871391589_0,
  017_00009752726279742736_114_00000061035545968962_116_00003334321916543309_016_00007035296726998674_116_00013503487583143758_116_00003338886116348349_015_00000816496580927726_0,
  017_00009752726279742736_116_00005429545740840913_115_00000606755098151446_016_00003423897441206646_116_00013189273959494383_116_00003338886116348349_015_00000816496580927726_0,
  016_00000475312291698062_114_00000061035545968962_118_00032219192657510165_116_00001993201487481394_116_00012875060335845006_116_00003338886116348349_115_00001224744871391589_0,
  016_00000475312291698062_115_00000677756345295187_116_00007517835791499152_016_00014859995179548064_116_00012403739900370943_116_00003338886116348349_015_00000816496580927726_0,
  016_00000475312291698062_116_00007451572309007539_017_00005145108484160671_115_00000159193490017117_116_00012089526276721567_116_00003338886116348349_115_00001224744871391589_0,
  016_00000475312291698062_115_00000677756345295187_016_00004084442688378387_116_00007009033828859209_116_00011618205841247502_116_00003338886116348349_115_00001224744871391589_0,
  017_00009752726279742736_115_00000677756345295187_016_00005757848238360724_116_00008814733471755224_115_00001114688540577344_116_00003338886116348349_115_00001224744871391589_0,
  017_00009752726279742736_114_00000061035545968962_115_00000740627542150033_016_00002220097679275974_116_00010675564970299374_116_00003338886116348349_115_00001224744871391589_0,
  017_00014752329642507697_116_00005429545740840913_016_00002689938063393106_116_00008614100178100111_115_00001020424453482531_116_00003338886116348349_015_00000816496580927726_0,
  017_00014752329642507697_116_00005429545740840913_116_00009749043191475603_016_00007637196607964014_116_00009890030911175934_116_00003338886116348349_115_00001224744871391589_0,
  017_00014752329642507697_116_00005429545740840913_117_00042825850615333005_016_00011449229187411152_115_00000941871047570187_116_00003338886116348349_015_00000816496580927726_0,
  017_00014752329642507697_116_00005429545740840913_016_00006148309533356603_116_00007610933709824549_116_00009104496852052494_116_00003338886116348349_015_00000816496580927726_0,
  017_00019751933005269812_116_00005429545740840913_016_00011893668588295963_116_00011021699701961463_116_00008790283228403118_116_00003338886116348349_015_00000816496580927726_0,
  017_00019751933005269812_117_00047555368847852436_116_00007964077271494443_016_00011248595893756042_116_00008476069604753742_016_00029950108064592316_115_00001224744871391589_0,
  016_00002475153636803477_116_00004081528028729957_016_00035711807583044566_116_00023761913849061114_116_00007690535545630302_116_00003338886116348349_115_00001224744871391589_0,
  016_00002475153636803477_116_00003407519172674287_016_00006371430273354248_116_00012426132757547248_116_00007219215110156237_116_00003338886116348349_015_00000816496580927726_0,
  016_00002975113973079973_116_00003407519172674287_016_00027121659093135233_116_00018645764860855742_116_00006905001486506862_116_00003338886116348349_015_00000816496580927726_0,
  016_00002975113973079973_117_00027335103166186175_116_00006290671721512106_016_00013656195417617392_116_00006590787862857486_116_00003338886116348349_015_00000816496580927726_0,
  016_00002975113973079973_117_00027335103166186175_116_00001995597476557439_115_00000159193490017117_115_00000627657423920811_116_00003338886116348349_115_00001224744871391589_0,
  016_00003475074309356185_117_00027335103166186175_117_00007684334065703917_117_00034979511898947385_116_00005805253803734046_116_00003338886116348349_115_00001224744871391589_0,
  016_00002975113973079973_117_00027335103166186175_116_00006458012276510339_016_00009141946310377358_116_00005333933368259982_116_00003338886116348349_015_00000816496580927726_0,
  016_00003475074309356185_117_00020595014605633308_116_00005788650056517404_016_00004728013849964882_116_00005019719744610606_116_00003338886116348349_115_00001224744871391589_0,
  016_00002975113973079973_116_00003407519172674287_116_00002441838956552729_117_00034979511898947385_117_00045483993091365416_016_00029950108064592316_115_00001224744871391589_0,
  016_00002975113973079973_116_00003407519172674287_017_00010165325134107683_116_00006206500654238761_117_00037628652500131016_116_00003338886116348349_115_00001224744871391589_0,
  016_00002975113973079973_116_00004081528028729957_117_00036132228415403655_017_00007153479768626296_117_00032915448145390375_116_00003338886116348349_015_00000816496580927726_0,
  016_00002475153636803477_117_00047555368847852436_116_00004115244506535067_016_00006032130258723112_117_00029773311908896616_116_00003338886116348349_015_00000816496580927726_0,
  016_00002475153636803477_117_00047555368847852436_017_00028014984333919285_116_00005103017539135641_117_00026631175672402857_116_00003338886116348349_115_00001224744871391589_0,
  016_00002475153636803477_117_00047555368847852436_116_00003557442656540954_016_00006834663433343559_117_00021917971317662216_116_00003338886116348349_015_00000816496580927726_0,
  016_00002975113973079973_116_00004081528028729957_116_00005398188761521525_016_00003223264147551537_117_00018775835081168454_116_00003338886116348349_015_00000816496580927726_0,
  016_00002975113973079973_116_00004081528028729957_016_00000960752328411357_115_00000399953442403252_117_00015633698844674693_116_00003338886116348349_015_00000816496580927726_0,
  016_00003475074309356185_117_00047555368847852436_116_00006346451906511517_016_00005329913730930215_117_00012491562608180934_116_00003338886116348349_015_00000816496580927726_0,
  016_00003475074309356185_117_00047555368847852436_016_00002299476768397227_117_00016922515469987276_117_00009349426371687174_116_00003338886116348349_015_00000816496580927726_0,
  017_00039750346456326807_116_00004081528028729957_117_00036132228415403655_017_00007153479768626296_118_00062072901351934134_016_00029950108064592316_115_00001224744871391589_0,
  017_00039750346456326807_116_00004081528028729957_116_00002776520066549197_115_00000159193490017117_018_00016480504560409875_116_00003338886116348349_015_00000816496580927726_0,
  017_00039750346456326807_116_00004081528028729957_016_00022715024478181745_116_00019548614682303749_017_00004790186692534748_116_00003338886116348349_015_00000816496580927726_0,
  017_00039750346456326807_116_00004081528028729957_115_00001097620726146265_016_00022484060338442347_017_00007932322929028508_116_00003338886116348349_115_00001224744871391589_1,
  017_00044749949819088924_116_00003407519172674287_015_00001222834969829243_114_00000132286659321677_017_00012645527283769148_116_00003338886116348349_115_00001224744871391589_0,
  017_00044749949819088924_116_00004081528028729957_016_00010331823408312446_116_00014432465694098375_016_00001735873163850979_116_00003338886116348349_115_00001224744871391589_0,
  017_00049749553181853884_116_00003407519172674287_115_00000606755098151446_016_00008540046429412019_016_00002207193599325043_116_00003338886116348349_015_00000816496580927726_0,
  017_00044749949819088924_116_00003407519172674287_016_00004084442688378387_117_00048020675986529676_016_00002521407222974419_116_00003338886116348349_015_00000816496580927726_0,
  017_00044749949819088924_116_00003407519172674287_117_00038921237665374214_016_00003423897441206646_016_00002835620846623795_016_00029950108064592316_115_00001224744871391589_0,
  017_00044749949819088924_117_00027335103166186175_116_00008633439491487378_017_00024207309729310825_017_00036211549057472353_116_00003338886116348349_015_00000816496580927726_0,
  017_00049749553181853884_117_00027335103166186175_016_00010331823408312446_116_00011924549523409467_016_00003935368529396611_116_00003338886116348349_015_00000816496580927726_0,
  017_00049749553181853884_117_00027335103166186175_116_00007908297086495032_016_00008038463195274238_016_00004249582153045987_116_00003338886116348349_115_00001224744871391589_0,
  017_00049749553181853884_117_00027335103166186175_016_00002745718248392517_116_00007309983769341876_016_00004720902588520051_116_00003338886116348349_115_00001224744871391589_0,
  017_00049749553181853884_117_00020595014605633308_116_00003947903951536833_017_00020194643856208588_016_00005192223023994115_116_00003338886116348349_015_00000816496580927726_0,
  017_00049749553181853884_116_00001385492604507661_017_00030803993583889844_116_00008915050118582778_016_00005506436647643491_116_00003338886116348349_115_00001224744871391589_0,
  017_00049749553181853884_117_00020595014605633308_117_00015493559965621492_117_00006890850787231645_016_00005977757083117555_116_00003338886116348349_115_00001224744871391589_0,
  016_00005474915654461884_116_00001385492604507661_117_00025533993265515514_117_00010903516660333884_016_00006449077518591619_116_00003338886116348349_015_00000816496580927726_0,
  016_00005974875990738095_116_00001385492604507661_016_00009495120633321278_116_00013028032638512588_016_00006763291142240996_016_00029950108064592316_115_00001224744871391589_0,
  016_00005474915654461884_117_00027335103166186175_117_00021071578465562615_117_00038992177772049624_016_00007548825201364435_116_00003338886116348349_015_00000816496580927726_0,
  016_00005474915654461884_117_00020595014605633308_016_00007208133048345416_116_00009216000059065448_016_00007863038825013812_116_00003338886116348349_015_00000816496580927726_0,
  016_00005474915654461884_117_00027335103166186175_117_00020513776615568505_016_00008941313016722243_016_00008177252448663187_116_00003338886116348349_015_00000816496580927726_0,
  017_00049749553181853884_117_00020595014605633308_116_00013988337251430858_016_00018471394465340092_016_00008491466072312563_116_00003338886116348349_115_00001224744871391589_0,
  017_00049749553181853884_117_00020595014605633308_116_00002664959696550374_016_00002922314207068864_016_00008962786507786628_116_00003338886116348349_015_00000816496580927726_0,
  016_00005474915654461884_116_00001385492604507661_117_00011031145165668592_117_00003881351382404913_016_00009277000131436004_116_00003338886116348349_015_00000816496580927726_0,
  016_00005974875990738095_117_00007114837484523745_015_00002483467150815937_114_00000203511478569242_016_00009591213755085379_116_00003338886116348349_015_00000816496580927726_0,
  016_00005974875990738095_117_00007114837484523745_016_00005813628423360135_116_00007109350475686768_016_00009905427378734756_116_00003338886116348349_015_00000816496580927726_0,
  016_00005974875990738095_118_00003747489239670474_017_00048095850933707335_116_00008413466884444997_016_00010219641002384132_116_00003338886116348349_115_00001224744871391589_0,
  016_00006474836327014591_118_00003747489239670474_015_00002952020704810992_115_00002225716414664777_016_00010690961437858195_116_00003338886116348349_115_00001224744871391589_0,
  016_00006474836327014591_016_00000636533963658965_117_00038921237665374214_118_00028781849141293357_015_00001116228187333226_016_00029950108064592316_115_00001224744871391589_0,
  016_00006474836327014591_016_00000636533963658965_017_00010723126984101795_116_00003698584483549854_014_00000119478159324557_116_00003338886116348349_015_00000816496580927726_0,
  016_00006474836327014591_118_00003747489239670474_116_00010864646891463827_016_00014859995179548064_016_00012262029556105076_116_00003338886116348349_015_00000816496580927726_0,
  016_00006474836327014591_016_00000636533963658965_116_00004673046356529179_016_00004126113968999543_016_00012576243179754452_016_00029950108064592316_115_00001224744871391589_0,
  016_00006474836327014591_016_00000636533963658965_116_00010251064856470304_016_00013656195417617392_016_00013361777238877892_116_00003338886116348349_015_00000816496580927726_0,
  016_00006474836327014591_016_00000636533963658965_116_00015048160766419671_015_00001686632811609919_016_00013675990862527267_116_00003338886116348349_015_00000816496580927726_1,
  016_00006474836327014591_118_00003747489239670474_017_00006260712184148895_017_00015178811514830773_016_00013990204486176645_116_00003338886116348349_015_00000816496580927726_0,
  016_00006474836327014591_016_00000636533963658965_117_00007684334065703917_117_00021938347811365091_015_00001430441810982602_116_00003338886116348349_115_00001224744871391589_0,
  016_00006474836327014591_118_00003747489239670474_016_00008769978228328932_116_00007610933709824549_016_00014775738545300083_116_00003338886116348349_115_00001224744871391589_0,
  016_00006974796663290803_016_00000636533963658965_015_00002221300281318704_116_00018244498273545515_016_00015247058980774149_116_00003338886116348349_015_00000816496580927726_0,
  016_00006974796663290803_118_00003747489239670474_016_00008379516933333053_116_00007911883650307214_016_00015561272604423524_116_00003338886116348349_115_00001224744871391589_0,
  016_00006474836327014591_118_00003747489239670474_017_00030246191733895733_116_00009216000059065448_015_00001603259303989759_116_00003338886116348349_115_00001224744871391589_0,
  016_00006474836327014591_117_00007114837484523745_017_00014627739934060582_115_00000399953442403252_016_00016503913475371652_116_00003338886116348349_115_00001224744871391589_0,
  016_00006474836327014591_118_00003747489239670474_016_00007040792493347183_116_00008614100178100111_116_00016959837443286896_116_00003338886116348349_015_00000816496580927726_0,
  016_00006474836327014591_118_00003747489239670474_117_00003779721115745129_116_00003698584483549854_116_00016645623819637518_016_00029950108064592316_115_00001224744871391589_0,
  016_00006474836327014591_118_00003747489239670474_115_00000562130950151917_016_00000915981270517738_116_00015860089760514078_116_00003338886116348349_015_00000816496580927726_0,
  016_00006474836327014591_016_00000636533963658965_117_00004337522965739242_016_00001618197798310635_116_00015545876136864702_116_00003338886116348349_015_00000816496580927726_0,
  016_00006474836327014591_118_00003747489239670474_117_00018282569215592054_017_00008156646236901802_116_00015231662513215327_116_00003338886116348349_015_00000816496580927726_0,
  016_00005974875990738095_117_00007114837484523745_114_00000087449998614862_016_00012452395655686714_115_00001491744888956595_116_00003338886116348349_015_00000816496580927726_0,
  016_00005974875990738095_117_00007114837484523745_116_00004617266171529768_016_00010847329306445812_116_00014603235265916574_116_00003338886116348349_115_00001224744871391589_0,
  016_00005974875990738095_118_00003747489239670474_116_00005230848206523292_016_00005630863671412888_116_00014131914830442511_116_00003338886116348349_115_00001224744871391589_0,
  016_00005974875990738095_117_00007114837484523745_117_00013262352565645041_016_00000915981270517738_116_00013660594394968446_116_00003338886116348349_015_00000816496580927726_0,
  016_00005974875990738095_117_00007114837484523745_116_00005007727466525647_016_00005530547024585329_115_00001334638077131907_116_00003338886116348349_015_00000816496580927726_0,
  016_00005974875990738095_117_00007114837484523745_116_00009860603561474425_015_00001074701265961826_116_00013032167147669695_016_00029950108064592316_115_00001224744871391589_0,
  016_00005974875990738095_117_00007114837484523745_016_00008267956563334231_116_00010319483174168569_116_00012246633088546255_116_00003338886116348349_015_00000816496580927726_0,
  016_00005974875990738095_118_00003747489239670474_017_00044191237983748544_117_00023944680747916175_116_00011932419464896877_116_00003338886116348349_015_00000816496580927726_0,
  016_00005974875990738095_016_00000636533963658965_017_00010723126984101795_116_00007410300416169433_116_00011618205841247502_116_00003338886116348349_115_00001224744871391589_0,
  016_00006474836327014591_016_00000636533963658965_016_00006873451938348949_116_00009015366765410335_115_00001114688540577344_116_00003338886116348349_015_00000816496580927726_0,
  016_00005974875990738095_016_00000636533963658965_115_00001359787595643498_016_00016665694822444082_116_00010832671782124061_116_00003338886116348349_115_00001224744871391589_0,
  016_00005974875990738095_017_00013105428197142516_116_00008577659306487967_017_00023204143261035248_116_00010361351346649998_116_00003338886116348349_015_00000816496580927726_0,
  016_00005974875990738095_016_00000636533963658965_116_00003334321916543309_016_00005530547024585329_116_00010047137723000623_116_00003338886116348349_115_00001224744871391589_0,
  016_00006474836327014591_017_00019845516757699214_116_00007740956531496798_016_00004326747262654651_116_00009575817287526558_116_00003338886116348349_015_00000816496580927726_0,
  016_00005974875990738095_017_00019845516757699214_116_00010139504486471482_016_00014559045239065398_116_00009261603663877183_116_00003338886116348349_115_00001224744871391589_0,
  016_00005474915654461884_017_00013105428197142516_016_00006594551013351894_116_00005905550713756088_116_00008790283228403118_116_00003338886116348349_015_00000816496580927726_0,
  016_00005474915654461884_017_00013105428197142516_116_00002386058771553318_016_00003423897441206646_116_00008476069604753742_116_00003338886116348349_015_00000816496580927726_0,
  016_00005974875990738095_017_00019845516757699214_116_00008912340416484434_016_00003223264147551537_116_00008161855981104366_116_00003338886116348349_115_00001224744871391589_0,
  016_00005974875990738095_017_00019845516757699214_017_00005145108484160671_117_00013913016065160544_116_00007690535545630302_116_00003338886116348349_015_00000816496580927726_0,
  016_00005974875990738095_017_00019845516757699214_117_00022187182165550842_116_00001892884840653836_116_00007376321921980926_116_00003338886116348349_015_00000816496580927726_0,
  016_00006474836327014591_017_00033325693878808776_115_00000829875838149091_016_00005831496965067996_115_00000706210829833155_116_00003338886116348349_015_00000816496580927726_0]

/-- lr/data.csv 3302-3401 -/
def dataCsv33 : List ℕ := [
  016_00006474836327014591_016_00002658560531825208_118_00004329100157804543_115_00000159193490017117_116_00006747894674682174_016_00029950108064592316_115_00001224744871391589_0,
  016_00006474836327014591_017_00033325693878808776_116_00009693263006476192_016_00007737513254791571_116_00005962360615558734_116_00003338886116348349_015_00000816496580927726_0,
  016_00006474836327014591_017_00033325693878808776_116_00001995597476557439_016_00008640363076239577_116_00005648146991909357_116_00003338886116348349_015_00000816496580927726_0,
  016_00005974875990738095_016_00002658560531825208_115_00000829875838149091_016_00009944479484997806_116_00005333933368259982_116_00003338886116348349_015_00000816496580927726_0,
  016_00005974875990738095_017_00019845516757699214_117_00023302785865539066_016_00005731180318240445_116_00005019719744610606_116_00003338886116348349_015_00000816496580927726_0,
  016_00006474836327014591_016_00002658560531825208_017_00021321362133989932_016_00008339413135756903_115_00000470550612096123_116_00003338886116348349_115_00001224744871391589_0,
  016_00006974796663290803_017_00033325693878808776_116_00005955990611515638_016_00014358411945410283_117_00042341856854871657_116_00003338886116348349_015_00000816496580927726_0,
  016_00006974796663290803_017_00033325693878808776_017_00013512136234072358_118_00008718519775782523_115_00000391997206183779_116_00003338886116348349_115_00001224744871391589_0,
  016_00006974796663290803_016_00002658560531825208_116_00005900210426516227_016_00003423897441206646_117_00034486516263637257_116_00003338886116348349_015_00000816496580927726_0,
  016_00006474836327014591_016_00002658560531825208_116_00008633439491487378_015_00001014511277865292_115_00000313443800271435_116_00003338886116348349_015_00000816496580927726_0,
  016_00006474836327014591_016_00002658560531825208_116_00010753086521465005_016_00006734346786516008_117_00028202243790649734_116_00003338886116348349_015_00000816496580927726_0,
  016_00006474836327014591_016_00002658560531825208_117_00044499256165315343_016_00004728013849964882_117_00025060107554155975_116_00003338886116348349_015_00000816496580927726_0,
  016_00006974796663290803_016_00002658560531825208_016_00005590507683362491_115_00001112201634878902_117_00021917971317662216_116_00003338886116348349_015_00000816496580927726_0,
  016_00006974796663290803_016_00002658560531825208_016_00011056965813304793_115_00000811251694396233_117_00018775835081168454_116_00003338886116348349_015_00000816496580927726_0,
  016_00006974796663290803_017_00033325693878808776_116_00002776520066549197_016_00003524214088034203_117_00015633698844674693_116_00003338886116348349_015_00000816496580927726_0,
  016_00007474756999567299_017_00040065782439365477_116_00002609179511550963_016_00003022630853896422_117_00012491562608180934_116_00003338886116348349_115_00001224744871391589_0,
  016_00006974796663290803_017_00033325693878808776_116_00017948730386389056_016_00020678360695546334_117_00007778358253440293_116_00003338886116348349_115_00001224744871391589_0,
  016_00007474756999567299_017_00033325693878808776_016_00005423167128364257_116_00011322649642444131_117_00003065153898699653_116_00003338886116348349_015_00000816496580927726_0,
  016_00006974796663290803_016_00002658560531825208_116_00005732869871517993_016_00009743846191342698_019_00007698233779410749_116_00003338886116348349_015_00000816496580927726_0,
  016_00006974796663290803_016_00002658560531825208_016_00008379516933333053_116_00009416633352720559_017_00003219118574287868_116_00003338886116348349_015_00000816496580927726_0,
  016_00007474756999567299_017_00033325693878808776_014_00000418476279329798_116_00023661597202233557_017_00006361254810781627_116_00003338886116348349_015_00000816496580927726_0,
  016_00007474756999567299_017_00040065782439365477_117_00009357739615686254_017_00010162979173452956_017_00009503391047275388_116_00003338886116348349_015_00000816496580927726_0,
  016_00007474756999567299_017_00033325693878808776_116_00010474185596467949_016_00012953978889824496_017_00012645527283769148_116_00003338886116348349_015_00000816496580927726_0,
  016_00007474756999567299_017_00033325693878808776_017_00028014984333919285_117_00032973178962396227_016_00001578766352026291_116_00003338886116348349_015_00000816496580927726_0,
  016_00007474756999567299_017_00040065782439365477_017_00021879163983984046_116_00005905550713756088_017_00018929799756756668_116_00003338886116348349_015_00000816496580927726_0,
  016_00007474756999567299_017_00040065782439365477_016_00002689938063393106_116_00006306817301066312_016_00002207193599325043_116_00003338886116348349_015_00000816496580927726_0,
  016_00007474756999567299_017_00040065782439365477_016_00023607507438172326_116_00019849564622786418_016_00002521407222974419_116_00003338886116348349_015_00000816496580927726_0,
  016_00007474756999567299_017_00040065782439365477_015_00004982419438789561_116_00025868563432439795_016_00002835620846623795_116_00003338886116348349_115_00001224744871391589_0,
  016_00007974717335843795_017_00040065782439365477_116_00006736913201507395_016_00003925480675344427_016_00003306941282097859_116_00003338886116348349_015_00000816496580927726_0,
  016_00007974717335843795_016_00004680587099991834_016_00008044835823336586_116_00010319483174168569_017_00036211549057472353_116_00003338886116348349_015_00000816496580927726_0,
  016_00008474677672120007_016_00005354595956047504_116_00008577659306487967_015_00001074701265961826_016_00003935368529396611_116_00003338886116348349_015_00000816496580927726_0,
  016_00008474677672120007_016_00005354595956047504_017_00011280928834095907_017_00045273805563097663_016_00004249582153045987_116_00003338886116348349_015_00000816496580927726_0,
  016_00008474677672120007_016_00005354595956047504_016_00007375473603343651_116_00008413466884444997_016_00004563795776695363_116_00003338886116348349_115_00001224744871391589_0,
  016_00007974717335843795_016_00005354595956047504_115_00001092042707646324_016_00009543212897687582_016_00005035116212169427_116_00003338886116348349_115_00001224744871391589_0,
  016_00007974717335843795_016_00005354595956047504_017_00005145108484160671_116_00005805234066928531_016_00005506436647643491_116_00003338886116348349_115_00001224744871391589_0,
  016_00008474677672120007_015_00000602860481210279_016_00009271999893323634_116_00008814733471755224_016_00005977757083117555_116_00003338886116348349_015_00000816496580927726_0,
  016_00007974717335843795_016_00005354595956047504_118_00021063155657627917_117_00046014343049978595_016_00006291970706766932_116_00003338886116348349_015_00000816496580927726_0,
  016_00007974717335843795_016_00005354595956047504_017_00014069938084066472_116_00005905550713756088_016_00006606184330416307_116_00003338886116348349_015_00000816496580927726_0,
  016_00007974717335843795_015_00000602860481210279_117_00016051361815615603_016_00000915981270517738_016_00006920397954065683_116_00003338886116348349_115_00001224744871391589_0,
  016_00007974717335843795_015_00000602860481210279_116_00002609179511550963_016_00005229597084102664_016_00007391718389539748_116_00003338886116348349_015_00000816496580927726_0,
  016_00007474756999567299_016_00005354595956047504_116_00004840386911527413_016_00004126113968999543_016_00007705932013189124_116_00003338886116348349_115_00001224744871391589_0,
  016_00006974796663290803_016_00004680587099991834_116_00011701349666454997_015_00001205112906837649_016_00008177252448663187_016_00029950108064592316_115_00001224744871391589_0,
  016_00007474756999567299_016_00005354595956047504_114_00000087449998614862_016_00012452395655686714_016_00008962786507786628_116_00003338886116348349_015_00000816496580927726_0,
  016_00007474756999567299_016_00005354595956047504_016_00004976925648368967_117_00035982678367222964_016_00009277000131436004_116_00003338886116348349_115_00001224744871391589_0,
  016_00006974796663290803_016_00004680587099991834_016_00009327780078323045_116_00012125182817064584_016_00009748320566910068_116_00003338886116348349_015_00000816496580927726_0,
  016_00006474836327014591_016_00004680587099991834_017_00030803993583889844_116_00005905550713756088_016_00010062534190559445_116_00003338886116348349_015_00000816496580927726_0,
  016_00006474836327014591_016_00004680587099991834_016_00012395690253290663_116_00015736582102856609_015_00001037674781420882_116_00003338886116348349_015_00000816496580927726_0,
  016_00006474836327014591_017_00040065782439365477_117_00005453126665727467_017_00018188310919657433_016_00010690961437858195_116_00003338886116348349_015_00000816496580927726_0,
  016_00006474836327014591_016_00004680587099991834_117_00003779721115745129_017_00007153479768626296_016_00011005175061507573_116_00003338886116348349_115_00001224744871391589_0,
  016_00006974796663290803_016_00004680587099991834_016_00007487033973342473_116_00012225499463892138_016_00011476495496981636_116_00003338886116348349_015_00000816496580927726_0,
  016_00006974796663290803_016_00005354595956047504_116_00014155677806429092_015_00002268469363209746_015_00001179070912063101_116_00003338886116348349_015_00000816496580927726_1,
  016_00006974796663290803_016_00005354595956047504_016_00007877495268338351_116_00008614100178100111_016_00012104922744280389_116_00003338886116348349_015_00000816496580927726_0,
  016_00006974796663290803_016_00005354595956047504_016_00003972882318379565_116_00005403967479618307_016_00012419136367929764_116_00003338886116348349_015_00000816496580927726_0,
  016_00007974717335843795_015_00000602860481210279_016_00005200046388366611_116_00008413466884444997_015_00001273334999157914_116_00003338886116348349_015_00000816496580927726_0,
  016_00007974717335843795_015_00000602860481210279_017_00011280928834095907_018_00021376474272484798_016_00013047563615228517_116_00003338886116348349_015_00000816496580927726_0,
  016_00007474756999567299_016_00005354595956047504_116_00009581702636477369_016_00009041629663549801_016_00013361777238877892_116_00003338886116348349_015_00000816496580927726_0,
  016_00007974717335843795_016_00005354595956047504_116_00010251064856470304_016_00017869494584374754_016_00013675990862527267_116_00003338886116348349_015_00000816496580927726_1,
  016_00007974717335843795_016_00004680587099991834_115_00000696003394150504_016_00011750179127893825_016_00013990204486176645_016_00029950108064592316_115_00001224744871391589_0,
  016_00007474756999567299_017_00040065782439365477_117_00009357739615686254_117_00033976345430671806_016_00014775738545300083_116_00003338886116348349_015_00000816496580927726_0,
  016_00007474756999567299_017_00040065782439365477_117_00007684334065703917_016_00001919147738793301_015_00001508995216894946_116_00003338886116348349_015_00000816496580927726_0,
  016_00007474756999567299_017_00040065782439365477_116_00008075637641493265_016_00006533713492860893_016_00015404165792598836_116_00003338886116348349_015_00000816496580927726_0,
  016_00007474756999567299_017_00040065782439365477_117_00011031145165668592_017_00007153479768626296_016_00015718379416248212_116_00003338886116348349_015_00000816496580927726_0,
  016_00006974796663290803_017_00040065782439365477_116_00005230848206523292_016_00003925480675344427_015_00001603259303989759_116_00003338886116348349_015_00000816496580927726_0,
  016_00006974796663290803_017_00040065782439365477_017_00009049721434119458_016_00003323580794379088_016_00016346806663546964_116_00003338886116348349_015_00000816496580927726_0,
  016_00006974796663290803_017_00033325693878808776_016_00005255826573366024_117_00004884517850680491_116_00016959837443286896_116_00003338886116348349_015_00000816496580927726_0,
  016_00006974796663290803_017_00040065782439365477_016_00005088486018367789_116_00009717583293203229_116_00016645623819637518_116_00003338886116348349_115_00001224744871391589_0,
  016_00006974796663290803_016_00004680587099991834_016_00008546857488331286_116_00007711250356652106_116_00016174303384163455_116_00003338886116348349_115_00001224744871391589_0,
  016_00007474756999567299_016_00004680587099991834_015_00001401331561827359_115_00001383056581313304_115_00001570298294868939_016_00029950108064592316_115_00001224744871391589_0,
  016_00007474756999567299_016_00005354595956047504_115_00001052996578146736_015_00001857171111216765_115_00001491744888956595_116_00003338886116348349_015_00000816496580927726_0,
  016_00007474756999567299_015_00000602860481210279_014_00000681200950677025_116_00032088195535748287_116_00014603235265916574_116_00003338886116348349_015_00000816496580927726_1,
  016_00006974796663290803_016_00004680587099991834_016_00002522597508394872_116_00007811567003479657_114_00000142890216422672_116_00003338886116348349_015_00000816496580927726_0,
  016_00006974796663290803_016_00004680587099991834_016_00025113572433156426_116_00018244498273545515_116_00013974808018617824_116_00003338886116348349_015_00000816496580927726_0,
  016_00006974796663290803_016_00005354595956047504_116_00006011770796515049_016_00004326747262654651_116_00013660594394968446_116_00003338886116348349_015_00000816496580927726_0,
  016_00006974796663290803_016_00004680587099991834_016_00001630114548404292_117_00048020675986529676_115_00001334638077131907_116_00003338886116348349_015_00000816496580927726_0,
  016_00006974796663290803_016_00004680587099991834_116_00009079680971482668_016_00010646696012790704_116_00013032167147669695_116_00003338886116348349_015_00000816496580927726_0,
  016_00006974796663290803_017_00040065782439365477_117_00044499256165315343_016_00006934980080171117_116_00012717953524020318_116_00003338886116348349_115_00001224744871391589_0,
  016_00007474756999567299_016_00005354595956047504_116_00008577659306487967_016_00007536879961136456_116_00012246633088546255_116_00003338886116348349_115_00001224744871391589_0,
  016_00007474756999567299_016_00005354595956047504_017_00029130588033907506_116_00010419799820996123_115_00001177531265307219_016_00029950108064592316_115_00001224744871391589_0,
  016_00007474756999567299_016_00004680587099991834_016_00001630114548404292_116_00006908717182031652_116_00010989778593948751_116_00003338886116348349_015_00000816496580927726_0,
  016_00006974796663290803_016_00004680587099991834_117_00044499256165315343_117_00022941514279640599_116_00010675564970299374_116_00003338886116348349_115_00001224744871391589_0,
  016_00006974796663290803_016_00004680587099991834_017_00028572786183913396_116_00003698584483549854_115_00001020424453482531_116_00003338886116348349_015_00000816496580927726_0,
  016_00006474836327014591_017_00040065782439365477_116_00009079680971482668_016_00007637196607964014_116_00009890030911175934_116_00003338886116348349_015_00000816496580927726_0,
  016_00006474836327014591_017_00040065782439365477_117_00016051361815615603_117_00014916182533436123_116_00009575817287526558_116_00003338886116348349_015_00000816496580927726_0,
  016_00006974796663290803_017_00040065782439365477_016_00007542814158341884_115_00000640713394789387_116_00009261603663877183_016_00029950108064592316_115_00001224744871391589_0,
  016_00006474836327014591_017_00040065782439365477_116_00006290671721512106_017_00007153479768626296_116_00008476069604753742_116_00003338886116348349_015_00000816496580927726_0,
  016_00007474756999567299_016_00004680587099991834_116_00004059464321535655_016_00003624530734861761_116_00008161855981104366_116_00003338886116348349_015_00000816496580927726_0,
  016_00007474756999567299_016_00005354595956047504_117_00036132228415403655_117_00012909849596884967_115_00000784764235745499_016_00029950108064592316_115_00001224744871391589_0,
  016_00007974717335843795_016_00005354595956047504_116_00013876776881432036_015_00002539324309644148_115_00000706210829833155_116_00003338886116348349_115_00001224744871391589_0,
  016_00008474677672120007_015_00000602860481210279_116_00005788650056517404_016_00008038463195274238_116_00006590787862857486_116_00003338886116348349_115_00001224744871391589_0,
  016_00007474756999567299_016_00004680587099991834_116_00006848473571506217_016_00013254928830307169_116_00006119467427383422_116_00003338886116348349_115_00001224744871391589_0,
  016_00007474756999567299_016_00004680587099991834_016_00003359300283386041_017_00004143980363799563_116_00005648146991909357_016_00029950108064592316_115_00001224744871391589_0,
  016_00007474756999567299_016_00004680587099991834_116_00004059464321535655_016_00007336246667481341_117_00048626129327859174_116_00003338886116348349_015_00000816496580927726_0,
  016_00007474756999567299_016_00004680587099991834_116_00007294715051501508_016_00007336246667481341_117_00045483993091365416_116_00003338886116348349_015_00000816496580927726_0,
  016_00007474756999567299_017_00040065782439365477_116_00002720739881549785_016_00008138779842101795_117_00042341856854871657_116_00003338886116348349_015_00000816496580927726_0,
  016_00007474756999567299_017_00040065782439365477_116_00007462055606499741_017_00023204143261035248_115_00000391997206183779_116_00003338886116348349_015_00000816496580927726_0,
  016_00006974796663290803_017_00033325693878808776_016_00006036749163357781_116_00006708083888376544_117_00036057584381884134_116_00003338886116348349_015_00000816496580927726_0,
  016_00006974796663290803_017_00040065782439365477_117_00044499256165315343_116_00005002700892308083_117_00032915448145390375_116_00003338886116348349_115_00001224744871391589_0,
  016_00006974796663290803_017_00040065782439365477_016_00006092529348357192_116_00009316316705893005_117_00028202243790649734_116_00003338886116348349_015_00000816496580927726_0,
  016_00006974796663290803_016_00004680587099991834_016_00007598594343341296_116_00009316316705893005_117_00025060107554155975_116_00003338886116348349_015_00000816496580927726_0,
  016_00006974796663290803_016_00004680587099991834_017_00036939813933825083_116_00005805234066928531_117_00021917971317662216_116_00003338886116348349_015_00000816496580927726_0]

/-- lr/data.csv 3402-3501 -/
def dataCsv34 : List ℕ := [
  016_00006974796663290803_016_00004680587099991834_118_00015485137157686792_016_00004427063909482209_117_00018775835081168454_016_00029950108064592316_115_00001224744871391589_0,
  016_00006974796663290803_016_00004680587099991834_017_00043633436133754433_115_00000570491742010098_117_00010920494489934053_116_00003338886116348349_115_00001224744871391589_0,
  016_00006974796663290803_017_00040065782439365477_116_00010697306336465593_016_00013355245477134718_118_00062072901351934134_116_00003338886116348349_015_00000816496580927726_0,
  016_00006474836327014591_017_00033325693878808776_116_00011255108186459706_016_00012753345596169388_117_00003065153898699653_116_00003338886116348349_015_00000816496580927726_0,
  016_00006474836327014591_016_00002658560531825208_016_00008714198043329521_116_00009115683412237894_019_00007698233779410749_116_00003338886116348349_015_00000816496580927726_0,
  016_00006474836327014591_016_00002658560531825208_016_00005367386943364846_116_00007510617062996991_017_00003219118574287868_116_00003338886116348349_115_00001224744871391589_0,
  016_00005974875990738095_016_00002658560531825208_117_00038363435815380104_016_00004025797322171985_017_00007932322929028508_116_00003338886116348349_015_00000816496580927726_0,
  016_00005974875990738095_016_00002658560531825208_116_00008800780046485611_016_00009844162838170248_017_00011074459165522269_116_00003338886116348349_015_00000816496580927726_0,
  016_00005974875990738095_016_00002658560531825208_114_00000087449998614862_016_00001618197798310635_016_00001421659540201603_116_00003338886116348349_115_00001224744871391589_0,
  016_00005974875990738095_016_00002658560531825208_016_00008825758413328343_116_00010018533233685898_017_00018929799756756668_116_00003338886116348349_115_00001224744871391589_0,
  016_00005974875990738095_017_00019845516757699214_116_00004896167096526824_118_00028781849141293357_016_00002364300411149731_116_00003338886116348349_015_00000816496580927726_0,
  016_00006474836327014591_017_00019845516757699214_116_00006681133016507984_016_00015762845000996077_016_00002678514034799107_116_00003338886116348349_015_00000816496580927726_0,
  016_00006474836327014591_017_00019845516757699214_116_00012593832626445576_015_00001566252835416852_016_00002992727658448483_116_00003338886116348349_015_00000816496580927726_0,
  016_00006474836327014591_017_00019845516757699214_017_00011838730684090021_116_00003698584483549854_016_00003306941282097859_116_00003338886116348349_015_00000816496580927726_0,
  016_00006474836327014591_017_00019845516757699214_017_00009049721434119458_017_00012169312110004112_017_00036211549057472353_116_00003338886116348349_015_00000816496580927726_0,
  016_00006974796663290803_016_00002658560531825208_016_00002243696583397816_117_00030966846025845146_016_00003935368529396611_116_00003338886116348349_015_00000816496580927726_0,
  016_00007474756999567299_017_00033325693878808776_116_00005788650056517404_016_00004627697203137324_016_00004249582153045987_116_00003338886116348349_015_00000816496580927726_0,
  016_00007974717335843795_017_00040065782439365477_016_00004586464353373088_116_00006306817301066312_016_00004563795776695363_116_00003338886116348349_015_00000816496580927726_0,
  016_00007974717335843795_017_00040065782439365477_017_00009049721434119458_017_00004143980363799563_017_00048780094003447394_016_00029950108064592316_115_00001224744871391589_0,
  016_00007474756999567299_017_00033325693878808776_016_00004028662503378976_116_00006206500654238761_016_00005663543459468179_116_00003338886116348349_015_00000816496580927726_0,
  016_00007974717335843795_017_00040065782439365477_016_00016467643758247685_115_00001653911527747706_016_00005977757083117555_116_00003338886116348349_015_00000816496580927726_0,
  016_00007474756999567299_017_00033325693878808776_016_00004084442688378387_115_00001021916652734101_016_00006291970706766932_116_00003338886116348349_115_00001224744871391589_0,
  016_00007474756999567299_016_00002658560531825208_016_00005032705833368378_116_00005905550713756088_016_00006763291142240996_116_00003338886116348349_015_00000816496580927726_0,
  016_00006974796663290803_016_00002658560531825208_116_00002386058771553318_117_00048020675986529676_016_00007077504765890371_116_00003338886116348349_015_00000816496580927726_0,
  016_00007474756999567299_017_00033325693878808776_017_00030246191733895733_116_00007109350475686768_016_00007391718389539748_116_00003338886116348349_015_00000816496580927726_0,
  016_00007474756999567299_017_00033325693878808776_016_00004698024723371911_116_00006507450594721428_016_00007705932013189124_116_00003338886116348349_115_00001224744871391589_0,
  016_00007474756999567299_017_00033325693878808776_116_00008856560231485022_016_00008740679723067134_016_00008177252448663187_116_00003338886116348349_015_00000816496580927726_0,
  016_00007974717335843795_017_00040065782439365477_017_00012954334384078245_116_00005604600773273423_016_00008491466072312563_116_00003338886116348349_015_00000816496580927726_0,
  016_00007974717335843795_017_00040065782439365477_116_00008242978196491499_016_00009442896250860024_015_00000880567969596194_116_00003338886116348349_015_00000816496580927726_0,
  016_00007474756999567299_017_00033325693878808776_017_00006818514034143008_115_00000570491742010098_016_00009119893319611315_016_00029950108064592316_115_00001224744871391589_0,
  016_00007974717335843795_017_00040065782439365477_016_00015742501353255338_115_00001383056581313304_016_00009905427378734756_016_00029950108064592316_115_00001224744871391589_0,
  016_00007974717335843795_016_00004680587099991834_116_00006123331166513871_016_00003624530734861761_016_00010690961437858195_116_00003338886116348349_015_00000816496580927726_0,
  016_00007974717335843795_016_00004680587099991834_016_00026396516688142886_116_00019347981388648636_016_00011005175061507573_116_00003338886116348349_115_00001224744871391589_0,
  016_00007974717335843795_017_00040065782439365477_014_00000214878604081947_114_00000164387986306495_016_00011476495496981636_116_00003338886116348349_115_00001224744871391589_0,
  016_00007474756999567299_017_00033325693878808776_116_00007071594311503863_016_00004126113968999543_014_00000119478159324557_116_00003338886116348349_115_00001224744871391589_0,
  016_00007474756999567299_017_00033325693878808776_116_00008354538566490322_015_00001496031182637562_016_00012419136367929764_116_00003338886116348349_015_00000816496580927726_0,
  016_00007474756999567299_017_00033325693878808776_116_00004059464321535655_016_00008138779842101795_015_00001273334999157914_116_00003338886116348349_015_00000816496580927726_0,
  016_00007474756999567299_017_00033325693878808776_015_00004229386941297509_116_00024263497083198895_016_00013047563615228517_116_00003338886116348349_015_00000816496580927726_0,
  016_00006974796663290803_016_00002658560531825208_117_00037805633965385993_117_00024947847216191754_016_00013361777238877892_116_00003338886116348349_015_00000816496580927726_0,
  016_00006974796663290803_017_00019845516757699214_116_00002609179511550963_017_00014175645046555194_016_00013675990862527267_116_00003338886116348349_015_00000816496580927726_0,
  016_00006474836327014591_017_00019845516757699214_117_00043941454315321227_017_00015178811514830773_016_00013990204486176645_116_00003338886116348349_015_00000816496580927726_0,
  016_00006974796663290803_016_00002658560531825208_017_00011280928834095907_117_00005887684318956068_015_00001430441810982602_116_00003338886116348349_015_00000816496580927726_0,
  016_00006974796663290803_017_00033325693878808776_116_00002441838956552729_015_00001255271230251427_016_00014618631733475396_116_00003338886116348349_115_00001224744871391589_0,
  016_00007474756999567299_017_00033325693878808776_118_00021063155657627917_117_00009900350192058306_015_00001508995216894946_116_00003338886116348349_015_00000816496580927726_0,
  016_00007474756999567299_017_00040065782439365477_116_00008800780046485611_015_00001074701265961826_016_00015404165792598836_116_00003338886116348349_015_00000816496580927726_0,
  016_00007974717335843795_017_00040065782439365477_016_00003359300283386041_117_00038992177772049624_016_00015718379416248212_116_00003338886116348349_115_00001224744871391589_0,
  016_00007974717335843795_017_00040065782439365477_116_00007740956531496798_016_00009543212897687582_016_00016189699851722277_016_00029950108064592316_115_00001224744871391589_0,
  016_00008474677672120007_017_00040065782439365477_016_00004753804908371322_116_00005504284126445864_016_00016975233910845717_116_00003338886116348349_015_00000816496580927726_0,
  016_00007974717335843795_017_00040065782439365477_115_00000339010210154272_117_00033976345430671806_016_00017289447534495093_116_00003338886116348349_015_00000816496580927726_0,
  016_00008474677672120007_016_00004680587099991834_017_00036939813933825083_116_00006708083888376544_016_00017603661158144468_116_00003338886116348349_015_00000816496580927726_0,
  016_00007974717335843795_017_00040065782439365477_117_00018282569215592054_016_00003423897441206646_016_00017917874781793846_116_00003338886116348349_015_00000816496580927726_0,
  016_00007974717335843795_017_00040065782439365477_116_00004673046356529179_016_00003925480675344427_116_00016959837443286896_116_00003338886116348349_015_00000816496580927726_0,
  016_00007974717335843795_017_00033325693878808776_017_00035266408383842746_116_00007711250356652106_116_00016645623819637518_016_00029950108064592316_115_00001224744871391589_0,
  016_00007474756999567299_016_00002658560531825208_116_00006346451906511517_015_00001445872859223784_116_00015860089760514078_116_00003338886116348349_015_00000816496580927726_0,
  016_00007474756999567299_016_00002658560531825208_015_00002115317929819823_116_00018244498273545515_116_00015545876136864702_116_00003338886116348349_015_00000816496580927726_0,
  016_00006974796663290803_017_00019845516757699214_016_00004028662503378976_017_00015178811514830773_116_00015231662513215327_016_00029950108064592316_115_00001224744871391589_0,
  016_00006974796663290803_016_00002658560531825208_016_00003972882318379565_117_00013913016065160544_116_00014446128454091887_016_00029950108064592316_115_00001224744871391589_0,
  016_00007474756999567299_016_00002658560531825208_015_00006137069268277374_116_00028075529662646037_116_00013660594394968446_116_00003338886116348349_115_00001224744871391589_1,
  016_00007474756999567299_016_00002658560531825208_116_00011701349666454997_015_00000663403013968845_116_00013189273959494383_116_00003338886116348349_015_00000816496580927726_0,
  016_00007474756999567299_016_00002658560531825208_115_00001499238058142026_016_00014258095298582731_116_00012875060335845006_116_00003338886116348349_015_00000816496580927726_0,
  016_00007474756999567299_017_00019845516757699214_115_00000690425375650563_016_00001618197798310635_115_00001256084671219563_116_00003338886116348349_015_00000816496580927726_0,
  016_00007974717335843795_016_00002658560531825208_116_00011645569481455584_016_00009543212897687582_116_00012246633088546255_016_00029950108064592316_115_00001224744871391589_0,
  016_00007974717335843795_017_00033325693878808776_016_00013790194878275945_116_00012927715991685031_116_00011461099029422814_016_00029950108064592316_115_00001224744871391589_0,
  016_00007974717335843795_017_00033325693878808776_016_00015073139133262403_116_00014532782340925934_116_00010675564970299374_116_00003338886116348349_015_00000816496580927726_0,
  016_00008474677672120007_017_00040065782439365477_116_00013151634476439689_015_00001977551087409833_116_00010361351346649998_116_00003338886116348349_015_00000816496580927726_0,
  016_00008974638008396503_016_00004680587099991834_116_00008689219676486789_016_00005731180318240445_116_00010047137723000623_116_00003338886116348349_115_00001224744871391589_0,
  016_00008474677672120007_017_00040065782439365477_116_00005119287836524469_016_00016966644762926748_116_00009575817287526558_116_00003338886116348349_015_00000816496580927726_0,
  016_00008974638008396503_016_00004680587099991834_117_00043383652465327116_017_00042264306158271003_116_00009261603663877183_116_00003338886116348349_015_00000816496580927726_0,
  016_00008974638008396503_016_00004680587099991834_015_00003085893148809579_116_00021454630972027315_116_00008947390040227806_116_00003338886116348349_015_00000816496580927726_0,
  016_00008974638008396503_016_00004680587099991834_116_00006123331166513871_015_00000793814654844668_115_00000863317641657843_116_00003338886116348349_115_00001224744871391589_0,
  016_00008974638008396503_016_00005354595956047504_015_00001100118562830538_115_00001352961587265037_116_00008161855981104366_116_00003338886116348349_015_00000816496580927726_0,
  016_00008974638008396503_016_00004680587099991834_116_00005453968946520936_016_00009342579604032467_115_00000784764235745499_116_00003338886116348349_015_00000816496580927726_0,
  016_00008974638008396503_016_00004680587099991834_117_00008799937765692141_016_00003323580794379088_116_00007533428733805614_116_00003338886116348349_015_00000816496580927726_0,
  016_00008974638008396503_016_00005354595956047504_016_00008491077303331875_116_00006607767241548985_116_00007219215110156237_116_00003338886116348349_115_00001224744871391589_0,
  016_00009474598344672714_016_00005354595956047504_017_00010165325134107683_116_00004701750951825417_116_00006747894674682174_116_00003338886116348349_115_00001224744871391589_0,
  016_00008974638008396503_016_00004680587099991834_016_00005869408608359546_116_00006607767241548985_115_00000627657423920811_116_00003338886116348349_015_00000816496580927726_0,
  016_00008974638008396503_017_00040065782439365477_117_00009357739615686254_015_00000382516402851687_116_00005962360615558734_116_00003338886116348349_015_00000816496580927726_0,
  016_00008974638008396503_016_00004680587099991834_017_00004587306634166558_017_00017185144451381926_116_00005648146991909357_116_00003338886116348349_015_00000816496580927726_0,
  016_00008974638008396503_016_00004680587099991834_016_00003247739913387218_116_00009216000059065448_116_00005333933368259982_116_00003338886116348349_015_00000816496580927726_0,
  016_00008974638008396503_016_00005354595956047504_016_00004474903983374266_116_00009015366765410335_116_00005019719744610606_116_00003338886116348349_115_00001224744871391589_0,
  016_00009474598344672714_016_00005354595956047504_116_00007740956531496798_016_00018270761171684984_117_00045483993091365416_116_00003338886116348349_015_00000816496580927726_0,
  015_00000997455868094921_015_00000602860481210279_016_00006929232123348361_116_00008513783531272554_117_00042341856854871657_116_00003338886116348349_015_00000816496580927726_0,
  016_00009474598344672714_016_00005354595956047504_019_00068269368420777075_117_00023944680747916175_115_00000391997206183779_116_00003338886116348349_015_00000816496580927726_0,
  016_00009474598344672714_016_00005354595956047504_116_00004673046356529179_016_00002721680913413756_117_00036057584381884134_016_00029950108064592316_115_00001224744871391589_0,
  016_00009474598344672714_016_00005354595956047504_117_00011031145165668592_117_00009900350192058306_117_00028202243790649734_116_00003338886116348349_015_00000816496580927726_0,
  016_00009474598344672714_016_00005354595956047504_116_00006234891536512694_016_00007737513254791571_117_00025060107554155975_116_00003338886116348349_015_00000816496580927726_0,
  016_00009474598344672714_016_00005354595956047504_016_00006204089718356014_115_00001021916652734101_117_00021917971317662216_116_00003338886116348349_015_00000816496580927726_0,
  016_00008974638008396503_016_00005354595956047504_116_00001716696551560383_116_00001190668312860946_117_00018775835081168454_116_00003338886116348349_115_00001224744871391589_0,
  016_00009474598344672714_015_00000602860481210279_116_00008912340416484434_016_00014859995179548064_117_00014062630726427813_116_00003338886116348349_015_00000816496580927726_0,
  016_00009474598344672714_015_00000602860481210279_018_00017982973841959956_117_00032973178962396227_117_00010920494489934053_116_00003338886116348349_015_00000816496580927726_0,
  016_00009474598344672714_015_00000602860481210279_016_00012507250623289485_114_00000116235995829268_117_00007778358253440293_116_00003338886116348349_115_00001224744871391589_0,
  016_00009474598344672714_015_00000602860481210279_017_00028572786183913396_115_00000570491742010098_117_00003065153898699653_016_00029950108064592316_115_00001224744871391589_0,
  016_00009474598344672714_015_00000670261366815846_116_00011310888371459118_015_00002368786010037302_017_00004790186692534748_016_00029950108064592316_115_00001224744871391589_0,
  016_00009474598344672714_015_00000670261366815846_016_00005534727498363079_117_00046014343049978595_017_00012645527283769148_116_00003338886116348349_115_00001224744871391589_0,
  016_00009474598344672714_015_00000670261366815846_116_00010195284671470892_016_00005731180318240445_016_00001735873163850979_116_00003338886116348349_015_00000816496580927726_0,
  016_00009474598344672714_015_00000670261366815846_116_00008633439491487378_016_00007436563314308898_016_00002050086787500355_116_00003338886116348349_115_00001224744871391589_0,
  016_00009474598344672714_015_00000602860481210279_116_00012816953366443222_016_00008038463195274238_016_00002521407222974419_116_00003338886116348349_015_00000816496580927726_0,
  016_00009474598344672714_015_00000670261366815846_016_00005757848238360724_116_00006908717182031652_016_00002835620846623795_116_00003338886116348349_015_00000816496580927726_0,
  016_00009474598344672714_015_00000670261366815846_116_00013932557066431446_015_00001496031182637562_016_00003149834470273171_116_00003338886116348349_015_00000816496580927726_0,
  016_00009474598344672714_015_00000670261366815846_116_00010362625226469127_015_00000382516402851687_016_00003464048093922547_116_00003338886116348349_015_00000816496580927726_0]

/-- lr/data.csv 3502-3601 -/
def dataCsv35 : List ℕ := [
  016_00009474598344672714_015_00000670261366815846_014_00000185315106032259_115_00001403119910678815_016_00003778261717571923_016_00029950108064592316_115_00001224744871391589_0,
  016_00009474598344672714_015_00000670261366815846_116_00013820996696432624_015_00002368786010037302_016_00004563795776695363_016_00029950108064592316_115_00001224744871391589_0,
  016_00008974638008396503_015_00000602860481210279_116_00010753086521465005_016_00004627697203137324_016_00005349329835818804_116_00003338886116348349_115_00001224744871391589_0,
  016_00008474677672120007_016_00005354595956047504_117_00025533993265515514_016_00007637196607964014_016_00005820650271292868_116_00003338886116348349_015_00000816496580927726_0,
  016_00008474677672120007_016_00005354595956047504_117_00008242135915698029_017_00013172478578279617_016_00006134863894942243_116_00003338886116348349_115_00001224744871391589_0,
  016_00007974717335843795_016_00005354595956047504_015_00001044338377831127_116_00013328982578995259_016_00006606184330416307_116_00003338886116348349_015_00000816496580927726_0,
  016_00007974717335843795_016_00005354595956047504_116_00005788650056517404_015_00000723593002065379_016_00006920397954065683_016_00029950108064592316_115_00001224744871391589_0,
  016_00008474677672120007_016_00005354595956047504_117_00020513776615568505_116_00005604600773273423_016_00007705932013189124_116_00003338886116348349_115_00001224744871391589_0,
  016_00008474677672120007_015_00000602860481210279_016_00003861321948380742_116_00007009033828859209_016_00008177252448663187_116_00003338886116348349_015_00000816496580927726_0,
  016_00008974638008396503_015_00000670261366815846_016_00012953492103284776_116_00012827399344857475_016_00008491466072312563_116_00003338886116348349_015_00000816496580927726_0,
  016_00008474677672120007_015_00000670261366815846_117_00036132228415403655_016_00002621364266586198_015_00000880567969596194_116_00003338886116348349_015_00000816496580927726_0,
  016_00008974638008396503_015_00000670261366815846_116_00012091810961450875_016_00013054295536652054_016_00009119893319611315_116_00003338886116348349_015_00000816496580927726_0,
  016_00008974638008396503_015_00000670261366815846_116_00008131417826492676_016_00009543212897687582_016_00009434106943260692_116_00003338886116348349_115_00001224744871391589_0,
  016_00009474598344672714_015_00000737662252421413_116_00006792693386506806_015_00001255271230251427_016_00009905427378734756_116_00003338886116348349_115_00001224744871391589_0,
  016_00009474598344672714_015_00000670261366815846_115_00000606755098151446_016_00009844162838170248_015_00001037674781420882_016_00029950108064592316_115_00001224744871391589_0,
  016_00009474598344672714_015_00000737662252421413_017_00036939813933825083_019_00013131449069732513_015_00001116228187333226_116_00003338886116348349_115_00001224744871391589_0,
  015_00000997455868094921_015_00000737662252421413_116_00007629396161497976_016_00007837829901619122_016_00011633602308806323_116_00003338886116348349_015_00000816496580927726_0,
  015_00000997455868094921_015_00000670261366815846_017_00006260712184148895_117_00048020675986529676_014_00000119478159324557_116_00003338886116348349_015_00000816496580927726_0,
  016_00009474598344672714_015_00000670261366815846_116_00009079680971482668_015_00000492864714361999_016_00012262029556105076_116_00003338886116348349_015_00000816496580927726_0,
  016_00009474598344672714_015_00000602860481210279_017_00016858947334037033_116_00007510617062996991_016_00012576243179754452_116_00003338886116348349_115_00001224744871391589_0,
  016_00009474598344672714_015_00000670261366815846_016_00007263913233344829_116_00007811567003479657_016_00013047563615228517_116_00003338886116348349_015_00000816496580927726_0,
  016_00009474598344672714_015_00000670261366815846_018_00012404955342018832_117_00010903516660333884_016_00013361777238877892_116_00003338886116348349_015_00000816496580927726_0,
  016_00008974638008396503_015_00000670261366815846_016_00006259869903355426_116_00007510617062996991_016_00013675990862527267_116_00003338886116348349_015_00000816496580927726_0,
  016_00008974638008396503_015_00000602860481210279_117_00009915541465680366_117_00006890850787231645_016_00013990204486176645_116_00003338886116348349_015_00000816496580927726_0,
  016_00008974638008396503_016_00005354595956047504_116_00009693263006476192_016_00008239096488929353_015_00001430441810982602_116_00003338886116348349_115_00001224744871391589_0,
  016_00008974638008396503_015_00000602860481210279_016_00003917102133380153_116_00008313150237617443_016_00014775738545300083_116_00003338886116348349_015_00000816496580927726_0,
  016_00008974638008396503_016_00005354595956047504_117_00038363435815380104_117_00023944680747916175_015_00001508995216894946_016_00029950108064592316_115_00001224744871391589_0,
  016_00009474598344672714_015_00000602860481210279_017_00019090154734013484_117_00010903516660333884_014_00000158754862280729_116_00003338886116348349_115_00001224744871391589_0,
  015_00000997455868094921_015_00000602860481210279_116_00008968120601483845_015_00001315461218347961_016_00016346806663546964_116_00003338886116348349_015_00000816496580927726_1,
  016_00009474598344672714_015_00000602860481210279_016_00001574334363404881_117_00009900350192058306_015_00001666102028719634_116_00003338886116348349_015_00000816496580927726_1,
  016_00009474598344672714_015_00000602860481210279_116_00005453968946520936_016_00003724847381689319_116_00016959837443286896_116_00003338886116348349_115_00001224744871391589_0,
  016_00009474598344672714_015_00000602860481210279_016_00005702068053361313_116_00006808400535204094_115_00001648851700781283_116_00003338886116348349_115_00001224744871391589_0,
  016_00009474598344672714_015_00000602860481210279_117_00029438606215474306_017_00003140813895523986_116_00016017196572338768_116_00003338886116348349_015_00000816496580927726_0,
  015_00000997455868094921_015_00000670261366815846_017_00013512136234072358_117_00037989011303774045_115_00001570298294868939_116_00003338886116348349_015_00000816496580927726_0,
  015_00000997455868094921_015_00000737662252421413_016_00012841931733285954_115_00001403119910678815_116_00015388769325040015_116_00003338886116348349_115_00001224744871391589_0,
  016_00009474598344672714_015_00000670261366815846_016_00007431253788343062_116_00010118849880513456_115_00001491744888956595_016_00029950108064592316_115_00001224744871391589_0,
  015_00000997455868094921_015_00000670261366815846_016_00005200046388366611_116_00005805234066928531_116_00014131914830442511_116_00003338886116348349_015_00000816496580927726_0,
  015_00000997455868094921_015_00000670261366815846_016_00024611550768161727_116_00018545448214028186_116_00013817701206793134_116_00003338886116348349_115_00001224744871391589_0,
  015_00000997455868094921_015_00000737662252421413_016_00005367386943364846_115_00000399953442403252_115_00001334638077131907_116_00003338886116348349_015_00000816496580927726_0,
  015_00000997455868094921_015_00000670261366815846_016_00008212176378334819_116_00007510617062996991_116_00013032167147669695_116_00003338886116348349_015_00000816496580927726_0,
  016_00009474598344672714_015_00000602860481210279_017_00019647956584007595_116_00008614100178100111_116_00012717953524020318_116_00003338886116348349_015_00000816496580927726_0,
  016_00008974638008396503_016_00005354595956047504_018_00040295047841724455_016_00003423897441206646_116_00012403739900370943_116_00003338886116348349_015_00000816496580927726_0,
  016_00008974638008396503_015_00000602860481210279_016_00020093355783209415_116_00015335315515546384_116_00012089526276721567_116_00003338886116348349_015_00000816496580927726_0,
  016_00008974638008396503_015_00000602860481210279_116_00005007727466525647_117_00034979511898947385_115_00001177531265307219_116_00003338886116348349_015_00000816496580927726_0,
  016_00009474598344672714_015_00000602860481210279_117_00031112011765456643_117_00029963679557569567_116_00011461099029422814_116_00003338886116348349_115_00001224744871391589_0,
  016_00008974638008396503_016_00005354595956047504_017_00020763560283995822_117_00013913016065160544_116_00010989778593948751_116_00003338886116348349_015_00000816496580927726_0,
  016_00009474598344672714_015_00000602860481210279_116_00012370711886447932_016_00011950812421548933_116_00010675564970299374_116_00003338886116348349_115_00001224744871391589_0,
  016_00009474598344672714_015_00000670261366815846_116_00004003684136536244_016_00008138779842101795_115_00001020424453482531_116_00003338886116348349_115_00001224744871391589_0,
  016_00009474598344672714_015_00000602860481210279_016_00004307563428376032_116_00005504284126445864_116_00009732924099351247_116_00003338886116348349_015_00000816496580927726_0,
  016_00008974638008396503_015_00000602860481210279_116_00013374755216437333_016_00020477727401891217_115_00000941871047570187_116_00003338886116348349_115_00001224744871391589_0,
  016_00009474598344672714_015_00000670261366815846_116_00005955990611515638_017_00015178811514830773_116_00008947390040227806_116_00003338886116348349_115_00001224744871391589_0,
  016_00009474598344672714_015_00000602860481210279_015_00001451533728326829_116_00015836898749684165_116_00008476069604753742_116_00003338886116348349_015_00000816496580927726_0,
  016_00008974638008396503_015_00000602860481210279_115_00001008372430147207_016_00012352079008859156_116_00008161855981104366_116_00003338886116348349_115_00001224744871391589_0,
  016_00008974638008396503_016_00005354595956047504_017_00044191237983748544_117_00021938347811365091_116_00007690535545630302_116_00003338886116348349_115_00001224744871391589_0,
  016_00009474598344672714_016_00005354595956047504_117_00007684334065703917_016_00003223264147551537_116_00007219215110156237_116_00003338886116348349_015_00000816496580927726_0,
  016_00008974638008396503_016_00004680587099991834_017_00006818514034143008_117_00022941514279640599_116_00006905001486506862_116_00003338886116348349_015_00000816496580927726_0,
  016_00009474598344672714_016_00005354595956047504_015_00001094540544330597_116_00008513783531272554_116_00006590787862857486_116_00003338886116348349_015_00000816496580927726_0,
  016_00008974638008396503_016_00004680587099991834_116_00012816953366443222_016_00003323580794379088_115_00000627657423920811_116_00003338886116348349_115_00001224744871391589_0,
  016_00008474677672120007_017_00040065782439365477_015_00001139164692330126_115_00001383056581313304_116_00005805253803734046_116_00003338886116348349_015_00000816496580927726_0,
  016_00008474677672120007_016_00004680587099991834_016_00006706111383350716_116_00010118849880513456_115_00000549104018008467_116_00003338886116348349_115_00001224744871391589_0,
  016_00008974638008396503_016_00004680587099991834_016_00007877495268338351_116_00007610933709824549_116_00005019719744610606_116_00003338886116348349_015_00000816496580927726_0,
  016_00008474677672120007_017_00040065782439365477_117_00029438606215474306_117_00014916182533436123_115_00000470550612096123_116_00003338886116348349_015_00000816496580927726_0,
  016_00008474677672120007_017_00040065782439365477_117_00037805633965385993_015_00000382516402851687_116_00004391292497311854_116_00003338886116348349_015_00000816496580927726_0,
  016_00008974638008396503_016_00004680587099991834_116_00004115244506535067_117_00042001677176876356_117_00040770788736624775_116_00003338886116348349_115_00001224744871391589_0,
  016_00008474677672120007_017_00040065782439365477_116_00002609179511550963_016_00002220097679275974_117_00036057584381884134_116_00003338886116348349_115_00001224744871391589_0,
  016_00008974638008396503_016_00004680587099991834_116_00006625352831508573_015_00001205112906837649_115_00000313443800271435_116_00003338886116348349_115_00001224744871391589_0,
  016_00008974638008396503_017_00040065782439365477_115_00001359787595643498_016_00022383743691614786_117_00026631175672402857_116_00003338886116348349_015_00000816496580927726_0,
  016_00008974638008396503_017_00033325693878808776_017_00005145108484160671_116_00005905550713756088_117_00023489039435909095_116_00003338886116348349_015_00000816496580927726_0,
  016_00008974638008396503_017_00040065782439365477_116_00009302801711480313_016_00014759678532720513_117_00020346903199415334_116_00003338886116348349_015_00000816496580927726_0,
  016_00008974638008396503_017_00040065782439365477_016_00000737631588413712_117_00040998510708600777_117_00017204766962921575_116_00003338886116348349_115_00001224744871391589_0,
  016_00008974638008396503_017_00040065782439365477_116_00005453968946520936_016_00006333080199205777_117_00012491562608180934_016_00029950108064592316_115_00001224744871391589_0,
  016_00008474677672120007_017_00040065782439365477_016_00008491077303331875_116_00012325816110719694_118_00046362220169465326_116_00003338886116348349_115_00001224744871391589_0,
  016_00008974638008396503_017_00040065782439365477_116_00004896167096526824_015_00001074701265961826_019_00007698233779410749_116_00003338886116348349_015_00000816496580927726_0,
  016_00008974638008396503_017_00040065782439365477_116_00004840386911527413_016_00008439729782584461_017_00003219118574287868_116_00003338886116348349_015_00000816496580927726_0,
  016_00008474677672120007_017_00040065782439365477_115_00000740627542150033_016_00006032130258723112_017_00006361254810781627_116_00003338886116348349_015_00000816496580927726_0,
  016_00008474677672120007_017_00033325693878808776_016_00001574334363404881_117_00008897183723782728_017_00009503391047275388_116_00003338886116348349_015_00000816496580927726_0,
  016_00007974717335843795_016_00002658560531825208_016_00003359300283386041_017_00017185144451381926_017_00012645527283769148_116_00003338886116348349_015_00000816496580927726_0,
  016_00007974717335843795_016_00002658560531825208_116_00004673046356529179_117_00009900350192058306_016_00001578766352026291_116_00003338886116348349_115_00001224744871391589_0,
  016_00008474677672120007_017_00033325693878808776_017_00048095850933707335_117_00040998510708600777_016_00002050086787500355_116_00003338886116348349_115_00001224744871391589_0,
  016_00008974638008396503_017_00040065782439365477_015_00006321143878775431_116_00028276162956301145_016_00002521407222974419_116_00003338886116348349_015_00000816496580927726_1,
  016_00008974638008396503_017_00040065782439365477_016_00006204089718356014_115_00000811251694396233_016_00002835620846623795_116_00003338886116348349_015_00000816496580927726_0,
  016_00008974638008396503_017_00040065782439365477_117_00044499256165315343_018_00021376474272484798_016_00003149834470273171_116_00003338886116348349_115_00001224744871391589_0,
  016_00008974638008396503_017_00040065782439365477_116_00008019857456493854_016_00010546379365963146_017_00036211549057472353_116_00003338886116348349_015_00000816496580927726_0,
  016_00008974638008396503_016_00004680587099991834_015_00001183788840329655_116_00010720749761478792_016_00003935368529396611_116_00003338886116348349_015_00000816496580927726_0,
  016_00008974638008396503_017_00040065782439365477_116_00019343235011374338_015_00002900464238223351_016_00004249582153045987_116_00003338886116348349_015_00000816496580927726_0,
  016_00009474598344672714_016_00004680587099991834_016_00022770804663181154_116_00015034365575063715_016_00004563795776695363_116_00003338886116348349_015_00000816496580927726_0,
  016_00008974638008396503_017_00033325693878808776_017_00030246191733895733_116_00005103017539135641_017_00048780094003447394_116_00003338886116348349_015_00000816496580927726_0,
  016_00008974638008396503_017_00033325693878808776_115_00000339010210154272_117_00013913016065160544_016_00005192223023994115_016_00029950108064592316_115_00001224744871391589_0,
  016_00008474677672120007_017_00040065782439365477_117_00018840371065586167_017_00045273805563097663_016_00005977757083117555_116_00003338886116348349_115_00001224744871391589_0,
  016_00008474677672120007_017_00033325693878808776_015_00005166494049287619_116_00026370146666577576_016_00006449077518591619_116_00003338886116348349_015_00000816496580927726_0,
  016_00008974638008396503_017_00040065782439365477_116_00007573615976498564_016_00006834663433343559_016_00006763291142240996_116_00003338886116348349_015_00000816496580927726_0,
  016_00008474677672120007_017_00033325693878808776_117_00045057058015309454_017_00014175645046555194_016_00007077504765890371_116_00003338886116348349_115_00001224744871391589_0,
  016_00007974717335843795_016_00002658560531825208_116_00009470142266478546_016_00005430230377757772_016_00007548825201364435_016_00029950108064592316_115_00001224744871391589_0,
  016_00007974717335843795_016_00002658560531825208_116_00009023900786483257_015_00000492864714361999_016_00008334359260487876_116_00003338886116348349_115_00001224744871391589_0,
  016_00007974717335843795_016_00002658560531825208_116_00004840386911527413_016_00005731180318240445_015_00000880567969596194_116_00003338886116348349_115_00001224744871391589_0,
  016_00007974717335843795_016_00002658560531825208_117_00012146748865656816_017_00011166145641728534_016_00009277000131436004_116_00003338886116348349_015_00000816496580927726_0,
  016_00008474677672120007_017_00033325693878808776_116_00010306845041469714_016_00010044796131825364_016_00009591213755085379_116_00003338886116348349_015_00000816496580927726_0,
  016_00008474677672120007_017_00033325693878808776_016_00010331823408312446_116_00007009033828859209_016_00009905427378734756_116_00003338886116348349_115_00001224744871391589_0,
  016_00008474677672120007_017_00033325693878808776_116_00007796736716496209_016_00013254928830307169_015_00001037674781420882_116_00003338886116348349_015_00000816496580927726_0,
  016_00008474677672120007_017_00033325693878808776_116_00008410318751489733_016_00010546379365963146_016_00010690961437858195_016_00029950108064592316_115_00001224744871391589_0]

/-- lr/data.csv 3602-3701 -/
def dataCsv36 : List ℕ := [
  016_00008474677672120007_017_00033325693878808776_117_00008799937765692141_115_00000530365083279075_016_00011476495496981636_116_00003338886116348349_015_00000816496580927726_0,
  016_00008474677672120007_017_00033325693878808776_116_00009023900786483257_015_00000312294750072398_015_00001179070912063101_116_00003338886116348349_015_00000816496580927726_0,
  016_00008474677672120007_017_00040065782439365477_116_00006792693386506806_016_00005229597084102664_016_00012104922744280389_116_00003338886116348349_115_00001224744871391589_0,
  016_00008474677672120007_016_00004680587099991834_018_00017982973841959956_019_00013131449069732513_016_00012576243179754452_116_00003338886116348349_015_00000816496580927726_0,
  016_00008974638008396503_016_00005354595956047504_017_00010165325134107683_116_00006708083888376544_016_00012890456803403827_116_00003338886116348349_015_00000816496580927726_0,
  016_00008474677672120007_016_00004680587099991834_016_00005702068053361313_115_00000811251694396233_016_00013204670427053204_116_00003338886116348349_015_00000816496580927726_0,
  016_00008474677672120007_016_00004680587099991834_115_00001231493170144852_015_00001506062847320318_015_00001351888405070258_116_00003338886116348349_015_00000816496580927726_0,
  016_00007974717335843795_016_00004680587099991834_016_00005534727498363079_116_00006206500654238761_016_00013833097674351955_116_00003338886116348349_015_00000816496580927726_0,
  016_00008474677672120007_016_00005354595956047504_016_00023161265958177033_116_00018445131567200628_016_00014147311298001333_116_00003338886116348349_115_00001224744871391589_0,
  016_00008474677672120007_015_00000602860481210279_016_00005869408608359546_116_00007510617062996991_016_00014618631733475396_116_00003338886116348349_115_00001224744871391589_0,
  016_00008474677672120007_016_00005354595956047504_017_00030803993583889844_116_00007610933709824549_015_00001508995216894946_116_00003338886116348349_115_00001224744871391589_0,
  016_00008474677672120007_015_00000602860481210279_116_00007462055606499741_016_00006433396846033335_016_00015561272604423524_116_00003338886116348349_015_00000816496580927726_1,
  016_00008474677672120007_016_00005354595956047504_014_00000046422445383725_117_00021938347811365091_116_00016959837443286896_116_00003338886116348349_015_00000816496580927726_0,
  016_00008474677672120007_015_00000602860481210279_017_00010165325134107683_117_00005887684318956068_116_00016645623819637518_116_00003338886116348349_015_00000816496580927726_0,
  016_00008974638008396503_015_00000670261366815846_017_00037497615783819194_116_00006708083888376544_116_00016331410195988143_116_00003338886116348349_015_00000816496580927726_0,
  016_00008974638008396503_015_00000737662252421413_016_00006036749163357781_116_00008413466884444997_116_00016017196572338768_116_00003338886116348349_115_00001224744871391589_0,
  016_00008974638008396503_015_00000737662252421413_116_00007015814126504452_016_00002220097679275974_116_00015545876136864702_116_00003338886116348349_115_00001224744871391589_0,
  016_00008974638008396503_015_00000670261366815846_117_00005453126665727467_016_00001618197798310635_115_00001507455570139064_116_00003338886116348349_015_00000816496580927726_0,
  016_00009474598344672714_015_00000737662252421413_116_00005063507651525058_016_00006333080199205777_116_00014760342077741262_116_00003338886116348349_015_00000816496580927726_0,
  016_00009474598344672714_016_00008050631380269416_116_00005788650056517404_017_00042264306158271003_116_00014446128454091887_116_00003338886116348349_015_00000816496580927726_0,
  016_00009474598344672714_016_00008050631380269416_117_00036132228415403655_017_00018188310919657433_116_00014131914830442511_016_00029950108064592316_115_00001224744871391589_0,
  016_00009474598344672714_016_00008050631380269416_016_00006594551013351894_116_00010921383055133904_115_00001334638077131907_116_00003338886116348349_015_00000816496580927726_0,
  015_00000997455868094921_016_00008724640236325086_117_00016609163665609716_118_00008718519775782523_116_00013032167147669695_116_00003338886116348349_015_00000816496580927726_0,
  015_00000997455868094921_016_00008724640236325086_117_00004895324815733354_117_00035982678367222964_116_00012717953524020318_116_00003338886116348349_115_00001224744871391589_0,
  015_00000997455868094921_016_00009398649092380373_016_00002689938063393106_117_00040998510708600777_116_00012246633088546255_116_00003338886116348349_115_00001224744871391589_0,
  016_00010474519017225707_016_00009398649092380373_116_00004003684136536244_016_00003423897441206646_115_00001177531265307219_116_00003338886116348349_115_00001224744871391589_0,
  016_00010974479353501918_016_00010072657948436043_116_00009972163931473248_016_00013054295536652054_116_00011303992217598127_116_00003338886116348349_115_00001224744871391589_0,
  016_00010974479353501918_016_00010072657948436043_016_00002745718248392517_116_00009416633352720559_116_00010832671782124061_116_00003338886116348349_015_00000816496580927726_0,
  016_00010974479353501918_016_00009398649092380373_016_00003917102133380153_116_00007911883650307214_116_00010518458158474686_116_00003338886116348349_015_00000816496580927726_0,
  016_00010474519017225707_016_00008724640236325086_115_00000690425375650563_016_00004126113968999543_115_00001020424453482531_116_00003338886116348349_015_00000816496580927726_0,
  015_00000997455868094921_016_00008050631380269416_016_00017081225793241208_115_00001272708269802992_116_00009890030911175934_116_00003338886116348349_015_00000816496580927726_0,
  016_00010474519017225707_016_00009398649092380373_116_00006681133016507984_117_00037989011303774045_116_00009575817287526558_116_00003338886116348349_115_00001224744871391589_0,
  016_00010474519017225707_016_00008724640236325086_016_00005311606758365435_116_00009416633352720559_116_00009104496852052494_116_00003338886116348349_015_00000816496580927726_0,
  016_00010974479353501918_016_00008724640236325086_117_00009915541465680366_017_00006150313300350718_116_00008790283228403118_116_00003338886116348349_115_00001224744871391589_0,
  016_00010974479353501918_016_00009398649092380373_117_00022187182165550842_117_00022941514279640599_116_00008318962792929054_116_00003338886116348349_015_00000816496580927726_0,
  016_00010474519017225707_016_00008050631380269416_016_00004307563428376032_117_00049023842454805255_116_00008004749169279678_116_00003338886116348349_115_00001224744871391589_0,
  016_00010974479353501918_016_00009398649092380373_116_00005007727466525647_016_00006533713492860893_116_00007533428733805614_116_00003338886116348349_015_00000816496580927726_0,
  016_00010974479353501918_016_00009398649092380373_017_00048653652783701445_116_00008413466884444997_116_00007219215110156237_116_00003338886116348349_115_00001224744871391589_0,
  016_00011474439689778415_016_00010072657948436043_116_00005230848206523292_016_00004828330496792433_116_00006747894674682174_116_00003338886116348349_115_00001224744871391589_0,
  016_00011974400026054626_016_00010746666804491714_014_00000046422445383725_116_00005002700892308083_115_00000627657423920811_116_00003338886116348349_015_00000816496580927726_0,
  016_00011974400026054626_016_00010746666804491714_018_00029139010841842207_117_00008897183723782728_116_00005962360615558734_016_00029950108064592316_115_00001224744871391589_0,
  016_00011474439689778415_016_00010746666804491714_116_00002832300251548608_017_00018188310919657433_116_00005176826556435293_116_00003338886116348349_015_00000816496580927726_0,
  016_00011474439689778415_016_00010746666804491714_116_00012816953366443222_016_00017668861290719644_117_00048626129327859174_116_00003338886116348349_015_00000816496580927726_0,
  016_00011474439689778415_016_00010746666804491714_015_00001367863450827712_116_00013629932519477927_117_00045483993091365416_116_00003338886116348349_015_00000816496580927726_0,
  016_00010974479353501918_016_00010072657948436043_017_00005145108484160671_116_00007610933709824549_117_00042341856854871657_116_00003338886116348349_015_00000816496580927726_0,
  016_00010974479353501918_016_00010072657948436043_116_00007015814126504452_016_00003524214088034203_115_00000391997206183779_116_00003338886116348349_015_00000816496580927726_0,
  016_00010974479353501918_016_00010072657948436043_015_00001808526912323061_116_00014332149047270821_117_00036057584381884134_116_00003338886116348349_115_00001224744871391589_0,
  016_00010974479353501918_016_00010072657948436043_116_00006234891536512694_015_00000382516402851687_115_00000313443800271435_116_00003338886116348349_015_00000816496580927726_0,
  016_00010974479353501918_016_00010072657948436043_116_00005342408576522114_016_00007035296726998674_117_00028202243790649734_116_00003338886116348349_115_00001224744871391589_0,
  016_00010974479353501918_016_00010072657948436043_117_00032227615465444864_017_00004143980363799563_117_00023489039435909095_116_00003338886116348349_015_00000816496580927726_0,
  016_00010474519017225707_016_00009398649092380373_116_00005175068021523881_118_00028781849141293357_117_00020346903199415334_116_00003338886116348349_015_00000816496580927726_0,
  016_00010474519017225707_016_00010072657948436043_116_00005286628391522703_015_00000492864714361999_117_00017204766962921575_116_00003338886116348349_015_00000816496580927726_0,
  016_00010474519017225707_016_00010072657948436043_116_00011031987446462062_016_00010847329306445812_117_00014062630726427813_116_00003338886116348349_115_00001224744871391589_0,
  016_00010474519017225707_016_00009398649092380373_117_00011588947015662704_116_00002595101368446733_117_00009349426371687174_116_00003338886116348349_015_00000816496580927726_0,
  016_00010474519017225707_016_00009398649092380373_017_00035824210233836856_117_00040998510708600777_118_00062072901351934134_116_00003338886116348349_015_00000816496580927726_0,
  016_00010474519017225707_016_00009398649092380373_016_00008212176378334819_116_00009115683412237894_117_00003065153898699653_116_00003338886116348349_015_00000816496580927726_0,
  016_00010474519017225707_016_00010072657948436043_116_00008689219676486789_016_00013656195417617392_019_00007698233779410749_116_00003338886116348349_115_00001224744871391589_0,
  016_00010474519017225707_016_00010072657948436043_116_00003445882286542132_016_00005430230377757772_017_00004790186692534748_116_00003338886116348349_015_00000816496580927726_0,
  016_00010974479353501918_016_00010072657948436043_116_00005007727466525647_017_00045273805563097663_017_00007932322929028508_116_00003338886116348349_115_00001224744871391589_0,
  016_00010974479353501918_016_00010072657948436043_015_00001088962525830656_116_00015034365575063715_017_00012645527283769148_116_00003338886116348349_115_00001224744871391589_0,
  016_00011474439689778415_016_00010746666804491714_115_00000785251690149562_016_00009141946310377358_016_00001735873163850979_116_00003338886116348349_015_00000816496580927726_0,
  016_00011474439689778415_013_00000011420675660547_016_00005590507683362491_117_00033976345430671806_016_00002050086787500355_116_00003338886116348349_115_00001224744871391589_0,
  016_00011474439689778415_013_00000011420675660547_117_00012146748865656816_117_00023944680747916175_016_00002521407222974419_116_00003338886116348349_115_00001224744871391589_0,
  016_00011474439689778415_013_00000011420675660547_116_00005398188761521525_017_00017185144451381926_016_00002992727658448483_116_00003338886116348349_115_00001224744871391589_0,
  016_00011474439689778415_013_00000011420675660547_016_00008156396193335408_116_00009216000059065448_016_00003464048093922547_116_00003338886116348349_115_00001224744871391589_0,
  016_00011974400026054626_015_00001209468451660267_115_00001008372430147207_016_00010646696012790704_016_00003935368529396611_116_00003338886116348349_115_00001224744871391589_0,
  016_00011474439689778415_016_00010746666804491714_016_00003861321948380742_118_00008718519775782523_017_00044066889648706753_116_00003338886116348349_115_00001224744871391589_0,
  016_00011474439689778415_016_00010746666804491714_016_00007040792493347183_115_00000570491742010098_017_00048780094003447394_116_00003338886116348349_015_00000816496580927726_0,
  016_00011474439689778415_013_00000011420675660547_117_00016051361815615603_117_00012909849596884967_016_00005192223023994115_116_00003338886116348349_015_00000816496580927726_0,
  016_00011974400026054626_015_00001209468451660267_116_00004115244506535067_018_00021376474272484798_016_00005506436647643491_116_00003338886116348349_015_00000816496580927726_0,
  016_00011474439689778415_013_00000011420675660547_016_00009048879153325988_116_00012526449404374806_016_00005820650271292868_116_00003338886116348349_015_00000816496580927726_0,
  016_00011474439689778415_013_00000011420675660547_117_00029438606215474306_117_00003881351382404913_016_00006134863894942243_116_00003338886116348349_115_00001224744871391589_0,
  016_00011474439689778415_016_00010746666804491714_016_00006650331198351305_116_00007711250356652106_016_00006606184330416307_116_00003338886116348349_015_00000816496580927726_0,
  016_00011474439689778415_013_00000011420675660547_116_00005007727466525647_017_00045273805563097663_016_00006920397954065683_016_00029950108064592316_115_00001224744871391589_0,
  016_00010974479353501918_016_00010072657948436043_116_00010753086521465005_016_00012452395655686714_016_00007705932013189124_116_00003338886116348349_015_00000816496580927726_0,
  016_00010474519017225707_016_00010072657948436043_016_00018252609678228844_116_00016940381864787284_016_00008020145636838499_116_00003338886116348349_115_00001224744871391589_0,
  016_00010974479353501918_016_00010072657948436043_017_00012954334384078245_116_00001993201487481394_016_00008491466072312563_116_00003338886116348349_115_00001224744871391589_0,
  016_00011474439689778415_013_00000011420675660547_116_00009525922451477957_016_00013656195417617392_016_00008962786507786628_116_00003338886116348349_115_00001224744871391589_0,
  016_00010974479353501918_016_00010072657948436043_016_00001574334363404881_116_00006908717182031652_016_00009434106943260692_116_00003338886116348349_015_00000816496580927726_0,
  016_00010974479353501918_016_00010072657948436043_016_00010387603593311858_116_00006005867360583647_016_00009748320566910068_116_00003338886116348349_015_00000816496580927726_0,
  016_00010974479353501918_016_00010072657948436043_016_00011447427108300672_116_00008814733471755224_016_00010062534190559445_116_00003338886116348349_015_00000816496580927726_0,
  016_00010474519017225707_016_00008724640236325086_116_00004784606726528002_016_00005129280437275106_015_00001037674781420882_116_00003338886116348349_115_00001224744871391589_0,
  016_00010474519017225707_016_00008050631380269416_017_00006260712184148895_116_00005203334185963199_016_00010848068249682883_116_00003338886116348349_015_00000816496580927726_0,
  015_00000997455868094921_016_00008050631380269416_017_00010723126984101795_117_00008897183723782728_015_00001116228187333226_116_00003338886116348349_115_00001224744871391589_0,
  015_00000997455868094921_016_00008050631380269416_115_00001499238058142026_015_00002539324309644148_016_00011633602308806323_116_00003338886116348349_015_00000816496580927726_1,
  016_00009474598344672714_015_00000737662252421413_116_00008856560231485022_016_00011649862481066267_014_00000119478159324557_116_00003338886116348349_115_00001224744871391589_0,
  015_00000997455868094921_015_00000737662252421413_115_00000740627542150033_016_00010546379365963146_016_00012419136367929764_116_00003338886116348349_015_00000816496580927726_0,
  015_00000997455868094921_016_00008050631380269416_017_00048095850933707335_116_00009316316705893005_015_00001273334999157914_116_00003338886116348349_115_00001224744871391589_0,
  015_00000997455868094921_016_00008050631380269416_116_00006625352831508573_016_00005831496965067996_016_00013204670427053204_116_00003338886116348349_015_00000816496580927726_0,
  016_00010474519017225707_016_00009398649092380373_016_00019535553933215304_116_00017341648452097511_015_00001351888405070258_116_00003338886116348349_015_00000816496580927726_0,
  016_00010474519017225707_016_00008724640236325086_116_00003445882286542132_016_00003624530734861761_016_00013833097674351955_116_00003338886116348349_015_00000816496580927726_0,
  016_00010474519017225707_016_00008050631380269416_117_00043941454315321227_016_00006934980080171117_016_00014147311298001333_116_00003338886116348349_015_00000816496580927726_0,
  016_00010474519017225707_016_00008724640236325086_015_00001222834969829243_116_00015636265456029053_016_00014461524921650708_116_00003338886116348349_015_00000816496580927726_0,
  016_00010474519017225707_016_00008724640236325086_117_00009915541465680366_116_00008513783531272554_016_00014775738545300083_116_00003338886116348349_015_00000816496580927726_0,
  016_00010474519017225707_016_00008724640236325086_117_00015493559965621492_016_00005028963790447548_015_00001508995216894946_116_00003338886116348349_115_00001224744871391589_0,
  016_00010974479353501918_016_00008724640236325086_117_00004895324815733354_117_00026954180152742907_016_00015561272604423524_116_00003338886116348349_015_00000816496580927726_1,
  016_00010474519017225707_016_00008050631380269416_115_00000472882654152859_016_00006834663433343559_116_00016959837443286896_116_00003338886116348349_015_00000816496580927726_0,
  016_00010974479353501918_016_00008050631380269416_016_00021710981148192343_116_00016940381864787284_116_00016645623819637518_116_00003338886116348349_015_00000816496580927726_0,
  016_00010974479353501918_016_00008724640236325086_015_00001222834969829243_116_00013629932519477927_116_00016331410195988143_016_00029950108064592316_115_00001224744871391589_0,
  016_00010974479353501918_016_00008050631380269416_016_00006148309533356603_116_00006808400535204094_116_00015545876136864702_116_00003338886116348349_015_00000816496580927726_0]

/-- lr/data.csv 3702-3801 -/
def dataCsv37 : List ℕ := [
  016_00010474519017225707_016_00008050631380269416_116_00005119287836524469_015_00001034574607230803_116_00015231662513215327_116_00003338886116348349_015_00000816496580927726_0,
  016_00010474519017225707_016_00008050631380269416_116_00006792693386506806_016_00008038463195274238_115_00001491744888956595_116_00003338886116348349_015_00000816496580927726_0,
  015_00000997455868094921_016_00008050631380269416_116_00005844430241516816_015_00000492864714361999_116_00014603235265916574_116_00003338886116348349_015_00000816496580927726_0,
  015_00000997455868094921_016_00008050631380269416_116_00006736913201507395_016_00009543212897687582_114_00000142890216422672_116_00003338886116348349_115_00001224744871391589_0,
  015_00000997455868094921_016_00008050631380269416_116_00007740956531496798_016_00009543212897687582_116_00013817701206793134_116_00003338886116348349_115_00001224744871391589_0,
  015_00000997455868094921_016_00008724640236325086_016_00010387603593311858_116_00012325816110719694_115_00001334638077131907_116_00003338886116348349_115_00001224744871391589_0,
  015_00000997455868094921_016_00008724640236325086_016_00001574334363404881_017_00011166145641728534_116_00012875060335845006_116_00003338886116348349_015_00000816496580927726_0,
  016_00010474519017225707_016_00008724640236325086_117_00023302785865539066_115_00000159193490017117_115_00001256084671219563_116_00003338886116348349_115_00001224744871391589_0,
  016_00010474519017225707_016_00009398649092380373_017_00005702910334154783_016_00004627697203137324_116_00012089526276721567_116_00003338886116348349_015_00000816496580927726_0,
  016_00010974479353501918_016_00009398649092380373_016_00012005228958294785_116_00013128349285340146_115_00001177531265307219_116_00003338886116348349_015_00000816496580927726_0,
  016_00010974479353501918_016_00010072657948436043_116_00002776520066549197_117_00016922515469987276_116_00011461099029422814_116_00003338886116348349_015_00000816496580927726_0,
  016_00010974479353501918_016_00010072657948436043_018_00023560992341901083_117_00014916182533436123_115_00001114688540577344_116_00003338886116348349_015_00000816496580927726_0,
  016_00011474439689778415_016_00010072657948436043_018_00023560992341901083_116_00006908717182031652_116_00010832671782124061_116_00003338886116348349_015_00000816496580927726_0,
  016_00011474439689778415_016_00010072657948436043_017_00014627739934060582_117_00044008010113427437_116_00010518458158474686_116_00003338886116348349_015_00000816496580927726_0,
  016_00011474439689778415_016_00009398649092380373_015_00001763902764323532_116_00016137848690166836_115_00001020424453482531_116_00003338886116348349_115_00001224744871391589_0,
  016_00011974400026054626_016_00009398649092380373_116_00003557442656540954_016_00005229597084102664_116_00009732924099351247_116_00003338886116348349_115_00001224744871391589_0,
  016_00011474439689778415_016_00009398649092380373_016_00003917102133380153_116_00007711250356652106_116_00009261603663877183_116_00003338886116348349_015_00000816496580927726_0,
  016_00011474439689778415_016_00009398649092380373_116_00005342408576522114_016_00004126113968999543_116_00008947390040227806_016_00029950108064592316_115_00001224744871391589_0,
  016_00011974400026054626_016_00009398649092380373_117_00049519472815262355_016_00004126113968999543_116_00008161855981104366_116_00003338886116348349_015_00000816496580927726_0,
  016_00011974400026054626_016_00010072657948436043_017_00028572786183913396_118_00008718519775782523_115_00000784764235745499_116_00003338886116348349_015_00000816496580927726_0,
  016_00011974400026054626_016_00009398649092380373_116_00001716696551560383_017_00012169312110004112_116_00007533428733805614_116_00003338886116348349_115_00001224744871391589_0,
  016_00010974479353501918_016_00008050631380269416_018_00029139010841842207_016_00003624530734861761_115_00000706210829833155_116_00003338886116348349_115_00001224744871391589_0,
  016_00010974479353501918_016_00008050631380269416_116_00004896167096526824_017_00018188310919657433_116_00006590787862857486_116_00003338886116348349_015_00000816496580927726_0,
  016_00011474439689778415_016_00008050631380269416_015_00001222834969829243_116_00015636265456029053_115_00000627657423920811_116_00003338886116348349_015_00000816496580927726_0,
  016_00011474439689778415_016_00008050631380269416_116_00001772476736559794_016_00007737513254791571_116_00005962360615558734_116_00003338886116348349_115_00001224744871391589_0,
  016_00011474439689778415_015_00000737662252421413_018_00023560992341901083_117_00024947847216191754_115_00000549104018008467_016_00029950108064592316_115_00001224744871391589_0,
  016_00011474439689778415_016_00008050631380269416_117_00018840371065586167_117_00032973178962396227_115_00000470550612096123_116_00003338886116348349_115_00001224744871391589_0,
  016_00011474439689778415_016_00008050631380269416_016_00013790194878275945_116_00015736582102856609_117_00042341856854871657_116_00003338886116348349_015_00000816496580927726_0,
  016_00011474439689778415_016_00008724640236325086_117_00045614859865303564_017_00045273805563097663_115_00000391997206183779_116_00003338886116348349_015_00000816496580927726_0,
  016_00011974400026054626_016_00008724640236325086_116_00012649612811444988_015_00002158121051699434_117_00036057584381884134_116_00003338886116348349_115_00001224744871391589_0,
  016_00011474439689778415_016_00008050631380269416_116_00007462055606499741_016_00007737513254791571_115_00000313443800271435_116_00003338886116348349_115_00001224744871391589_0,
  016_00010974479353501918_016_00008050631380269416_116_00009023900786483257_016_00003022630853896422_117_00026631175672402857_116_00003338886116348349_115_00001224744871391589_0,
  016_00010974479353501918_016_00008050631380269416_116_00010697306336465593_016_00009844162838170248_117_00021917971317662216_116_00003338886116348349_115_00001224744871391589_0,
  016_00010974479353501918_015_00000737662252421413_117_00038363435815380104_117_00003881351382404913_117_00017204766962921575_116_00003338886116348349_015_00000816496580927726_0,
  016_00010974479353501918_016_00008050631380269416_016_00018643070973224722_116_00016037532043339278_117_00014062630726427813_116_00003338886116348349_115_00001224744871391589_0,
  016_00010974479353501918_015_00000737662252421413_116_00005844430241516816_016_00018672027758995209_117_00009349426371687174_116_00003338886116348349_115_00001224744871391589_0,
  016_00010974479353501918_015_00000737662252421413_016_00004976925648368967_116_00009416633352720559_118_00046362220169465326_016_00029950108064592316_115_00001224744871391589_0,
  016_00010974479353501918_015_00000737662252421413_116_00010474185596467949_016_00008640363076239577_017_00003219118574287868_116_00003338886116348349_015_00000816496580927726_0,
  016_00011474439689778415_016_00008050631380269416_115_00000472882654152859_015_00000382516402851687_017_00006361254810781627_116_00003338886116348349_115_00001224744871391589_0,
  016_00010974479353501918_016_00008050631380269416_016_00006929232123348361_116_00010419799820996123_017_00011074459165522269_116_00003338886116348349_115_00001224744871391589_0,
  016_00011474439689778415_016_00008050631380269416_116_00007685176346497387_016_00009743846191342698_016_00001578766352026291_116_00003338886116348349_015_00000816496580927726_0,
  016_00011974400026054626_016_00008724640236325086_116_00001995597476557439_117_00017925681938262783_017_00018929799756756668_116_00003338886116348349_015_00000816496580927726_0,
  016_00011974400026054626_016_00009398649092380373_017_00014069938084066472_116_00005002700892308083_016_00002207193599325043_116_00003338886116348349_015_00000816496580927726_0,
  016_00012474360362331123_016_00009398649092380373_015_00001228412988329184_116_00015435632162373938_016_00002521407222974419_116_00003338886116348349_015_00000816496580927726_0,
  016_00012474360362331123_016_00009398649092380373_116_00007238934866502097_015_00001315461218347961_016_00002835620846623795_116_00003338886116348349_015_00000816496580927726_0,
  016_00012974320698607618_016_00009398649092380373_016_00011112745998304205_116_00014231832400443263_016_00003149834470273171_116_00003338886116348349_015_00000816496580927726_0,
  016_00012474360362331123_016_00008724640236325086_116_00008131417826492676_016_00007536879961136456_016_00003464048093922547_016_00029950108064592316_115_00001224744871391589_0,
  016_00012474360362331123_015_00000737662252421413_117_00022187182165550842_116_00001190668312860946_016_00004249582153045987_116_00003338886116348349_015_00000816496580927726_0,
  016_00012474360362331123_015_00000737662252421413_117_00025533993265515514_117_00009900350192058306_016_00004563795776695363_116_00003338886116348349_015_00000816496580927726_0,
  016_00011974400026054626_015_00000737662252421413_016_00006315650088354837_116_00006106184007411204_017_00048780094003447394_116_00003338886116348349_015_00000816496580927726_0,
  016_00011474439689778415_015_00000737662252421413_017_00028014984333919285_116_00010118849880513456_016_00005192223023994115_116_00003338886116348349_015_00000816496580927726_0,
  016_00011974400026054626_015_00000737662252421413_117_00010473343315674478_016_00002220097679275974_016_00005506436647643491_116_00003338886116348349_015_00000816496580927726_0,
  016_00011474439689778415_015_00000737662252421413_116_00004673046356529179_017_00003140813895523986_016_00005820650271292868_016_00029950108064592316_115_00001224744871391589_0,
  016_00010974479353501918_015_00000670261366815846_116_00004226804876533889_016_00006834663433343559_016_00006606184330416307_116_00003338886116348349_015_00000816496580927726_0,
  016_00011474439689778415_015_00000670261366815846_116_00005398188761521525_016_00003724847381689319_016_00006920397954065683_116_00003338886116348349_015_00000816496580927726_0,
  016_00011474439689778415_015_00000670261366815846_116_00011701349666454997_016_00011549545834238708_015_00000723461157771506_116_00003338886116348349_015_00000816496580927726_0,
  016_00011474439689778415_015_00000737662252421413_018_00040295047841724455_116_00006908717182031652_016_00007548825201364435_116_00003338886116348349_015_00000816496580927726_0,
  016_00010974479353501918_015_00000737662252421413_117_00012704550715650928_116_00006306817301066312_016_00007863038825013812_116_00003338886116348349_115_00001224744871391589_0,
  016_00010974479353501918_015_00000670261366815846_116_00003501662471541543_016_00007436563314308898_016_00008334359260487876_116_00003338886116348349_115_00001224744871391589_0,
  016_00011474439689778415_015_00000670261366815846_116_00007071594311503863_016_00007035296726998674_015_00000880567969596194_116_00003338886116348349_015_00000816496580927726_0,
  016_00011474439689778415_015_00000602860481210279_116_00009023900786483257_016_00006834663433343559_016_00009119893319611315_116_00003338886116348349_015_00000816496580927726_1,
  016_00011974400026054626_015_00000670261366815846_116_00002720739881549785_117_00028960513089293993_016_00009434106943260692_116_00003338886116348349_115_00001224744871391589_0,
  016_00011474439689778415_015_00000670261366815846_117_00007126532215709803_117_00022941514279640599_016_00009905427378734756_116_00003338886116348349_115_00001224744871391589_0,
  016_00011474439689778415_015_00000670261366815846_116_00006179111351513282_015_00000793814654844668_015_00001037674781420882_116_00003338886116348349_015_00000816496580927726_0,
  016_00011974400026054626_015_00000670261366815846_116_00011701349666454997_016_00014659361885892956_016_00010690961437858195_116_00003338886116348349_015_00000816496580927726_0,
  016_00011974400026054626_015_00000737662252421413_116_00005342408576522114_016_00011850495774721375_016_00011005175061507573_116_00003338886116348349_115_00001224744871391589_0,
  016_00011474439689778415_015_00000737662252421413_116_00009247021526480902_016_00013054295536652054_016_00011476495496981636_116_00003338886116348349_015_00000816496580927726_0,
  016_00011474439689778415_015_00000737662252421413_016_00005088486018367789_117_00044008010113427437_015_00001179070912063101_116_00003338886116348349_015_00000816496580927726_0,
  016_00010974479353501918_015_00000670261366815846_017_00009049721434119458_116_00005805234066928531_016_00012104922744280389_116_00003338886116348349_015_00000816496580927726_0,
  016_00010974479353501918_015_00000670261366815846_116_00005732869871517993_016_00007035296726998674_016_00012419136367929764_116_00003338886116348349_115_00001224744871391589_0,
  016_00011474439689778415_015_00000670261366815846_016_00003917102133380153_116_00009015366765410335_016_00012890456803403827_116_00003338886116348349_015_00000816496580927726_0,
  016_00011474439689778415_015_00000670261366815846_116_00008633439491487378_016_00009743846191342698_016_00013204670427053204_116_00003338886116348349_115_00001224744871391589_0,
  016_00011974400026054626_015_00000737662252421413_116_00005063507651525058_016_00004828330496792433_016_00013675990862527267_116_00003338886116348349_015_00000816496580927726_0,
  016_00011974400026054626_015_00000737662252421413_015_00001942399356321648_115_00001764259839258018_016_00013990204486176645_116_00003338886116348349_115_00001224744871391589_0,
  016_00011974400026054626_015_00000737662252421413_116_00003278541731543898_016_00005731180318240445_016_00014461524921650708_116_00003338886116348349_115_00001224744871391589_0,
  016_00012474360362331123_015_00000737662252421413_016_00017360126718238265_116_00016739748571132171_016_00014932845357124773_016_00029950108064592316_115_00001224744871391589_0,
  016_00012474360362331123_015_00000737662252421413_118_00004329100157804543_117_00031970012494120725_016_00015718379416248212_116_00003338886116348349_015_00000816496580927726_0,
  016_00011974400026054626_015_00000737662252421413_016_00010164482853314214_115_00000991821658685834_015_00001603259303989759_116_00003338886116348349_115_00001224744871391589_0,
  016_00011974400026054626_015_00000737662252421413_115_00000963748282147678_015_00001445872859223784_116_00016959837443286896_116_00003338886116348349_115_00001224744871391589_0,
  016_00011474439689778415_015_00000670261366815846_016_00006594551013351894_116_00008915050118582778_115_00001648851700781283_116_00003338886116348349_015_00000816496580927726_0,
  016_00011974400026054626_015_00000737662252421413_116_00005175068021523881_016_00002922314207068864_116_00016174303384163455_116_00003338886116348349_015_00000816496580927726_0,
  016_00011474439689778415_016_00005354595956047504_116_00004115244506535067_015_00000382516402851687_116_00015860089760514078_116_00003338886116348349_015_00000816496580927726_0,
  016_00010974479353501918_016_00005354595956047504_016_00016077182463251805_115_00001623816533699439_116_00015545876136864702_116_00003338886116348349_015_00000816496580927726_0,
  016_00010974479353501918_016_00005354595956047504_116_00007908297086495032_016_00007637196607964014_116_00015231662513215327_016_00029950108064592316_115_00001224744871391589_0,
  016_00010974479353501918_016_00005354595956047504_016_00011447427108300672_116_00010319483174168569_116_00014446128454091887_116_00003338886116348349_015_00000816496580927726_0,
  016_00011474439689778415_015_00000602860481210279_018_00034717029341783334_117_00032973178962396227_116_00014131914830442511_116_00003338886116348349_015_00000816496580927726_0,
  016_00011474439689778415_015_00000602860481210279_016_00002689938063393106_117_00033976345430671806_116_00013817701206793134_116_00003338886116348349_015_00000816496580927726_0,
  016_00011474439689778415_016_00005354595956047504_116_00009023900786483257_016_00007336246667481341_116_00013503487583143758_116_00003338886116348349_015_00000816496580927726_1,
  016_00011474439689778415_016_00005354595956047504_117_00015493559965621492_016_00008138779842101795_116_00013189273959494383_116_00003338886116348349_015_00000816496580927726_0,
  016_00011474439689778415_016_00005354595956047504_016_00006204089718356014_116_00007610933709824549_116_00012875060335845006_116_00003338886116348349_015_00000816496580927726_0,
  016_00011474439689778415_015_00000602860481210279_116_00007071594311503863_016_00008941313016722243_115_00001256084671219563_116_00003338886116348349_015_00000816496580927726_0,
  016_00011474439689778415_015_00000670261366815846_118_00060109285157215794_015_00000312294750072398_116_00012246633088546255_116_00003338886116348349_015_00000816496580927726_0,
  016_00011474439689778415_015_00000602860481210279_117_00044499256165315343_116_00005002700892308083_116_00011932419464896877_116_00003338886116348349_015_00000816496580927726_0,
  016_00011474439689778415_015_00000602860481210279_116_00008912340416484434_016_00009342579604032467_116_00011618205841247502_116_00003338886116348349_015_00000816496580927726_1,
  016_00010974479353501918_016_00005354595956047504_116_00010195284671470892_016_00008339413135756903_116_00011303992217598127_116_00003338886116348349_115_00001224744871391589_0,
  016_00010474519017225707_016_00005354595956047504_116_00007238934866502097_017_00013172478578279617_116_00010832671782124061_116_00003338886116348349_115_00001224744871391589_0,
  016_00010474519017225707_016_00005354595956047504_117_00019398172915580278_117_00024947847216191754_116_00010361351346649998_116_00003338886116348349_115_00001224744871391589_0,
  016_00010474519017225707_016_00005354595956047504_014_00000046422445383725_117_00031970012494120725_116_00009890030911175934_116_00003338886116348349_015_00000816496580927726_0,
  016_00010474519017225707_016_00005354595956047504_016_00013790194878275945_116_00014332149047270821_116_00009575817287526558_116_00003338886116348349_015_00000816496580927726_0,
  016_00010974479353501918_015_00000602860481210279_117_00018282569215592054_116_00006005867360583647_116_00009261603663877183_116_00003338886116348349_015_00000816496580927726_0]

/-- lr/data.csv 3802-3901 -/
def dataCsv38 : List ℕ := [
  016_00010474519017225707_015_00000602860481210279_016_00021041618928199406_116_00016940381864787284_116_00008947390040227806_116_00003338886116348349_115_00001224744871391589_0,
  016_00010974479353501918_015_00000602860481210279_016_00012953492103284776_116_00012426132757547248_116_00008476069604753742_116_00003338886116348349_115_00001224744871391589_0,
  016_00010974479353501918_015_00000602860481210279_116_00002832300251548608_017_00042264306158271003_116_00008004749169279678_116_00003338886116348349_115_00001224744871391589_0,
  016_00010974479353501918_015_00000602860481210279_117_00004337522965739242_117_00024947847216191754_116_00007533428733805614_116_00003338886116348349_015_00000816496580927726_0,
  016_00011474439689778415_015_00000602860481210279_117_00005453126665727467_116_00006607767241548985_116_00007219215110156237_116_00003338886116348349_015_00000816496580927726_0,
  016_00011974400026054626_015_00000670261366815846_016_00002299476768397227_117_00034979511898947385_116_00006905001486506862_116_00003338886116348349_115_00001224744871391589_0,
  016_00011474439689778415_015_00000602860481210279_116_00009972163931473248_016_00004025797322171985_116_00006433681051032798_116_00003338886116348349_115_00001224744871391589_1,
  016_00011474439689778415_015_00000670261366815846_018_00040295047841724455_117_00045011176581703016_116_00005962360615558734_116_00003338886116348349_115_00001224744871391589_0,
  016_00011474439689778415_015_00000602860481210279_016_00012451470438290075_116_00015535948809201496_115_00000549104018008467_116_00003338886116348349_115_00001224744871391589_0,
  016_00010974479353501918_016_00005354595956047504_115_00001052996578146736_016_00016665694822444082_116_00005019719744610606_116_00003338886116348349_015_00000816496580927726_0,
  016_00010974479353501918_016_00005354595956047504_017_00012954334384078245_116_00001892884840653836_115_00000470550612096123_116_00003338886116348349_115_00001224744871391589_0,
  016_00010474519017225707_016_00004680587099991834_016_00003861321948380742_116_00009717583293203229_117_00042341856854871657_116_00003338886116348349_115_00001224744871391589_0,
  015_00000997455868094921_017_00040065782439365477_116_00008187198011492087_016_00010044796131825364_117_00037628652500131016_116_00003338886116348349_015_00000816496580927726_0,
  015_00000997455868094921_017_00040065782439365477_116_00004003684136536244_015_00000492864714361999_117_00034486516263637257_116_00003338886116348349_015_00000816496580927726_0,
  016_00010474519017225707_017_00040065782439365477_115_00001186869022145323_015_00001917361099313299_115_00000313443800271435_116_00003338886116348349_115_00001224744871391589_1,
  016_00010974479353501918_016_00004680587099991834_016_00012841931733285954_116_00015134682221891271_117_00026631175672402857_116_00003338886116348349_015_00000816496580927726_0,
  016_00010474519017225707_017_00040065782439365477_117_00044499256165315343_016_00007637196607964014_117_00023489039435909095_116_00003338886116348349_015_00000816496580927726_0,
  016_00010474519017225707_017_00040065782439365477_116_00006569572646509162_015_00001205112906837649_117_00020346903199415334_116_00003338886116348349_115_00001224744871391589_0,
  016_00010474519017225707_016_00004680587099991834_116_00002664959696550374_017_00028219975602413067_117_00015633698844674693_116_00003338886116348349_015_00000816496580927726_0,
  016_00010974479353501918_016_00004680587099991834_016_00001574334363404881_117_00035982678367222964_117_00012491562608180934_116_00003338886116348349_015_00000816496580927726_0,
  016_00011474439689778415_016_00005354595956047504_116_00006569572646509162_017_00014175645046555194_117_00009349426371687174_116_00003338886116348349_015_00000816496580927726_0,
  016_00011474439689778415_015_00000602860481210279_016_00003191959728387807_116_00006507450594721428_118_00062072901351934134_116_00003338886116348349_015_00000816496580927726_0,
  016_00011974400026054626_015_00000670261366815846_116_00004171024691534478_017_00042264306158271003_117_00003065153898699653_116_00003338886116348349_115_00001224744871391589_0,
  016_00011474439689778415_015_00000602860481210279_017_00023552569533966383_117_00038992177772049624_018_00016480504560409875_116_00003338886116348349_115_00001224744871391589_0,
  016_00011474439689778415_015_00000602860481210279_016_00004530684168373677_116_00009717583293203229_017_00006361254810781627_116_00003338886116348349_015_00000816496580927726_0,
  016_00010974479353501918_016_00004680587099991834_116_00007015814126504452_016_00008941313016722243_017_00009503391047275388_016_00029950108064592316_115_00001224744871391589_0,
  016_00011474439689778415_016_00005354595956047504_115_00000562130950151917_015_00000382516402851687_016_00001735873163850979_016_00029950108064592316_115_00001224744871391589_0,
  016_00011974400026054626_015_00000602860481210279_117_00038921237665374214_016_00001618197798310635_016_00002521407222974419_116_00003338886116348349_115_00001224744871391589_0,
  016_00011474439689778415_016_00005354595956047504_016_00012451470438290075_116_00012225499463892138_016_00002992727658448483_116_00003338886116348349_115_00001224744871391589_0,
  016_00011474439689778415_015_00000602860481210279_115_00000963748282147678_016_00008439729782584461_016_00003464048093922547_016_00029950108064592316_115_00001224744871391589_1,
  016_00011474439689778415_015_00000602860481210279_016_00019647114303214126_116_00017341648452097511_016_00004249582153045987_116_00003338886116348349_015_00000816496580927726_0,
  016_00011474439689778415_015_00000602860481210279_015_00001133586673830185_116_00010319483174168569_016_00004563795776695363_116_00003338886116348349_115_00001224744871391589_0,
  016_00010974479353501918_015_00000602860481210279_116_00004115244506535067_016_00003524214088034203_016_00005035116212169427_116_00003338886116348349_115_00001224744871391589_0,
  016_00011474439689778415_015_00000670261366815846_018_00012404955342018832_117_00033976345430671806_016_00005506436647643491_116_00003338886116348349_115_00001224744871391589_0,
  016_00011474439689778415_015_00000737662252421413_115_00001359787595643498_016_00017167278056581863_016_00005977757083117555_116_00003338886116348349_115_00001224744871391589_0,
  016_00011474439689778415_015_00000737662252421413_116_00005788650056517404_015_00000312294750072398_016_00006449077518591619_116_00003338886116348349_115_00001224744871391589_0,
  016_00011974400026054626_016_00008050631380269416_116_00004059464321535655_016_00003925480675344427_016_00006920397954065683_116_00003338886116348349_015_00000816496580927726_0,
  016_00011974400026054626_016_00008050631380269416_117_00049519472815262355_015_00000793814654844668_015_00000723461157771506_116_00003338886116348349_015_00000816496580927726_0,
  016_00011974400026054626_015_00000737662252421413_014_00000190335322682206_116_00015535948809201496_016_00007548825201364435_116_00003338886116348349_015_00000816496580927726_0,
  016_00011474439689778415_015_00000670261366815846_017_00021879163983984046_116_00006507450594721428_016_00007863038825013812_116_00003338886116348349_115_00001224744871391589_0,
  016_00011974400026054626_015_00000670261366815846_016_00003972882318379565_116_00006908717182031652_016_00008334359260487876_116_00003338886116348349_015_00000816496580927726_0,
  016_00011974400026054626_015_00000737662252421413_017_00014627739934060582_017_00028219975602413067_016_00008648572884137251_116_00003338886116348349_015_00000816496580927726_0,
  016_00012474360362331123_016_00008050631380269416_018_00034717029341783334_018_00011344809589729025_016_00008962786507786628_116_00003338886116348349_015_00000816496580927726_0,
  016_00012474360362331123_016_00008050631380269416_116_00017390928536394943_016_00020176777461408553_016_00009277000131436004_116_00003338886116348349_015_00000816496580927726_0,
  016_00011974400026054626_015_00000737662252421413_117_00030554209915462527_016_00005931813611895553_016_00009591213755085379_116_00003338886116348349_015_00000816496580927726_0,
  016_00011474439689778415_015_00000670261366815846_017_00029130588033907506_116_00007309983769341876_016_00009905427378734756_116_00003338886116348349_015_00000816496580927726_0,
  016_00011474439689778415_015_00000602860481210279_116_00007573615976498564_015_00000723593002065379_016_00010219641002384132_116_00003338886116348349_015_00000816496580927726_0,
  016_00011474439689778415_015_00000670261366815846_117_00049519472815262355_016_00005731180318240445_016_00010533854626033508_116_00003338886116348349_115_00001224744871391589_0,
  016_00011474439689778415_015_00000602860481210279_016_00010108702668314802_116_00011924549523409467_016_00011005175061507573_116_00003338886116348349_015_00000816496580927726_0,
  016_00011474439689778415_015_00000670261366815846_017_00012396532534084133_117_00027957346621018414_016_00011319388685156948_116_00003338886116348349_015_00000816496580927726_0,
  016_00011474439689778415_015_00000670261366815846_116_00006569572646509162_017_00013172478578279617_016_00011633602308806323_116_00003338886116348349_115_00001224744871391589_0,
  016_00010974479353501918_015_00000602860481210279_115_00000690425375650563_016_00008439729782584461_016_00012104922744280389_016_00029950108064592316_115_00001224744871391589_0,
  016_00011474439689778415_015_00000602860481210279_016_00027623680758129936_114_00000203511478569242_016_00012890456803403827_116_00003338886116348349_015_00000816496580927726_0,
  016_00011974400026054626_015_00000670261366815846_117_00029438606215474306_017_00004143980363799563_016_00013204670427053204_116_00003338886116348349_015_00000816496580927726_0,
  016_00011974400026054626_015_00000670261366815846_116_00011199328001460296_016_00027700525973475267_015_00001351888405070258_116_00003338886116348349_015_00000816496580927726_1,
  016_00011974400026054626_015_00000737662252421413_017_00021879163983984046_116_00007711250356652106_016_00013833097674351955_016_00029950108064592316_115_00001224744871391589_0,
  016_00011974400026054626_016_00008050631380269416_116_00011645569481455584_016_00018672027758995209_016_00014618631733475396_116_00003338886116348349_115_00001224744871391589_0,
  016_00011974400026054626_016_00008050631380269416_117_00018282569215592054_017_00008156646236901802_015_00001508995216894946_016_00029950108064592316_115_00001224744871391589_0,
  016_00012474360362331123_016_00009398649092380373_017_00011280928834095907_117_00023944680747916175_014_00000158754862280729_116_00003338886116348349_015_00000816496580927726_0,
  016_00012974320698607618_016_00010072657948436043_016_00003359300283386041_117_00029963679557569567_016_00016189699851722277_116_00003338886116348349_015_00000816496580927726_0,
  016_00012974320698607618_016_00010072657948436043_116_00006234891536512694_117_00010903516660333884_016_00016503913475371652_116_00003338886116348349_015_00000816496580927726_0,
  016_00012474360362331123_016_00010072657948436043_117_00032227615465444864_017_00011166145641728534_016_00016818127099021027_116_00003338886116348349_115_00001224744871391589_0,
  016_00012474360362331123_016_00010072657948436043_116_00002386058771553318_015_00000382516402851687_016_00017289447534495093_016_00029950108064592316_115_00001224744871391589_0,
  016_00012474360362331123_016_00009398649092380373_016_00007542814158341884_116_00013028032638512588_016_00018074981593618533_116_00003338886116348349_015_00000816496580927726_0,
  016_00012474360362331123_016_00009398649092380373_016_00005032705833368378_116_00008313150237617443_016_00018389195217267909_116_00003338886116348349_115_00001224744871391589_0,
  016_00012974320698607618_016_00010072657948436043_016_00005032705833368378_116_00005604600773273423_016_00018860515652741972_016_00029950108064592316_115_00001224744871391589_1,
  016_00012974320698607618_016_00010746666804491714_116_00012705392996444398_016_00013254928830307169_116_00016959837443286896_116_00003338886116348349_015_00000816496580927726_0,
  016_00013474281034883828_016_00010746666804491714_016_00065275305632732525_115_00003038281253967983_116_00016645623819637518_116_00003338886116348349_115_00001224744871391589_1,
  016_00013474281034883828_013_00000011420675660547_015_00001228412988329184_116_00010118849880513456_116_00016174303384163455_116_00003338886116348349_115_00001224744871391589_0,
  016_00013474281034883828_013_00000011420675660547_116_00003278541731543898_016_00005229597084102664_115_00001570298294868939_116_00003338886116348349_015_00000816496580927726_0,
  016_00013474281034883828_015_00001209468451660267_117_00043383652465327116_016_00006132446905550669_116_00015388769325040015_116_00003338886116348349_015_00000816496580927726_0,
  016_00013474281034883828_015_00001209468451660267_016_00010554944148310093_116_00010018533233685898_115_00001507455570139064_116_00003338886116348349_115_00001224744871391589_0,
  016_00013474281034883828_016_00012768693372657955_116_00008354538566490322_016_00006533713492860893_116_00014603235265916574_116_00003338886116348349_015_00000816496580927726_0,
  016_00012974320698607618_015_00001209468451660267_016_00005534727498363079_117_00049023842454805255_114_00000142890216422672_116_00003338886116348349_015_00000816496580927726_0,
  016_00012974320698607618_013_00000011420675660547_115_00001588486354141084_016_00014157778651755175_116_00013974808018617824_116_00003338886116348349_015_00000816496580927726_0,
  016_00012974320698607618_015_00001209468451660267_116_00006234891536512694_015_00001014511277865292_116_00013660594394968446_116_00003338886116348349_015_00000816496580927726_0,
  016_00012974320698607618_015_00001209468451660267_017_00049211454633695556_116_00008212833590789884_115_00001334638077131907_116_00003338886116348349_015_00000816496580927726_0,
  016_00012974320698607618_013_00000011420675660547_117_00037805633965385993_016_00008339413135756903_116_00013032167147669695_016_00029950108064592316_115_00001224744871391589_0,
  016_00012974320698607618_013_00000011420675660547_016_00013065052473283598_116_00012927715991685031_116_00012246633088546255_116_00003338886116348349_015_00000816496580927726_0,
  016_00012974320698607618_013_00000011420675660547_115_00000606755098151446_016_00011750179127893825_116_00011932419464896877_116_00003338886116348349_115_00001224744871391589_0,
  016_00012474360362331123_016_00010746666804491714_016_00003136179543388396_116_00010520116467823681_116_00011461099029422814_116_00003338886116348349_015_00000816496580927726_0,
  016_00012474360362331123_016_00010072657948436043_117_00009915541465680366_016_00004126113968999543_115_00001114688540577344_116_00003338886116348349_015_00000816496580927726_0,
  016_00012474360362331123_016_00010746666804491714_116_00006681133016507984_016_00003724847381689319_116_00010832671782124061_116_00003338886116348349_015_00000816496580927726_0,
  016_00011974400026054626_016_00009398649092380373_117_00002664117415756904_018_00011344809589729025_116_00010518458158474686_116_00003338886116348349_115_00001224744871391589_0,
  016_00012474360362331123_016_00010072657948436043_017_00048653652783701445_115_00000399953442403252_116_00010047137723000623_016_00029950108064592316_115_00001224744871391589_0,
  016_00012474360362331123_016_00010072657948436043_016_00007710154713340118_115_00001082106640830635_116_00009261603663877183_116_00003338886116348349_015_00000816496580927726_0,
  016_00011974400026054626_016_00008724640236325086_116_00008187198011492087_016_00010546379365963146_116_00008947390040227806_116_00003338886116348349_015_00000816496580927726_0,
  016_00011974400026054626_016_00008050631380269416_116_00005063507651525058_016_00010546379365963146_115_00000863317641657843_116_00003338886116348349_015_00000816496580927726_0,
  016_00011474439689778415_016_00008050631380269416_015_00002031647652320706_116_00017141015158442399_116_00008318962792929054_116_00003338886116348349_015_00000816496580927726_0,
  016_00011974400026054626_016_00008050631380269416_116_00007517835791499152_015_00001205112906837649_116_00008004749169279678_116_00003338886116348349_015_00000816496580927726_0,
  016_00011474439689778415_016_00008050631380269416_116_00008521879121488555_016_00013555878770789835_116_00007690535545630302_116_00003338886116348349_015_00000816496580927726_0,
  016_00010974479353501918_015_00000737662252421413_116_00006736913201507395_016_00007035296726998674_116_00007376321921980926_116_00003338886116348349_015_00000816496580927726_0,
  016_00011474439689778415_015_00000737662252421413_116_00011199328001460296_016_00013355245477134718_115_00000706210829833155_116_00003338886116348349_115_00001224744871391589_0,
  016_00011474439689778415_016_00008050631380269416_017_00005702910334154783_017_00006150313300350718_116_00006590787862857486_116_00003338886116348349_015_00000816496580927726_0,
  016_00011474439689778415_016_00008050631380269416_116_00005955990611515638_016_00002721680913413756_115_00000627657423920811_116_00003338886116348349_115_00001224744871391589_0,
  016_00011474439689778415_016_00008050631380269416_018_00040295047841724455_019_00013131449069732513_116_00005805253803734046_116_00003338886116348349_115_00001224744871391589_0,
  016_00010974479353501918_016_00008050631380269416_017_00049211454633695556_116_00006808400535204094_116_00005333933368259982_116_00003338886116348349_115_00001224744871391589_0,
  016_00010974479353501918_015_00000737662252421413_016_00005646287868361902_116_00007209667122514325_117_00048626129327859174_116_00003338886116348349_115_00001224744871391589_0,
  016_00010474519017225707_015_00000737662252421413_116_00006458012276510339_117_00031970012494120725_116_00004391292497311854_116_00003338886116348349_115_00001224744871391589_0,
  016_00010474519017225707_015_00000670261366815846_016_00009606681003320101_116_00011322649642444131_115_00000391997206183779_116_00003338886116348349_115_00001224744871391589_0]

/-- lr/data.csv 3902-4001 -/
def dataCsv39 : List ℕ := [
  016_00010474519017225707_015_00000737662252421413_117_00049519472815262355_016_00011649862481066267_117_00034486516263637257_116_00003338886116348349_115_00001224744871391589_0,
  016_00010974479353501918_015_00000737662252421413_017_00007934117734131232_116_00005905550713756088_117_00029773311908896616_016_00029950108064592316_115_00001224744871391589_0,
  016_00010974479353501918_015_00000737662252421413_016_00005088486018367789_116_00005403967479618307_117_00021917971317662216_116_00003338886116348349_015_00000816496580927726_0,
  016_00010974479353501918_015_00000737662252421413_116_00003501662471541543_117_00003881351382404913_117_00018775835081168454_016_00029950108064592316_115_00001224744871391589_0,
  016_00010974479353501918_015_00000737662252421413_116_00006290671721512106_016_00010646696012790704_117_00010920494489934053_016_00029950108064592316_115_00001224744871391589_0,
  016_00010974479353501918_016_00008050631380269416_017_00012396532534084133_116_00005103017539135641_117_00003065153898699653_116_00003338886116348349_115_00001224744871391589_0,
  016_00011474439689778415_016_00008050631380269416_116_00013486315586436157_016_00022584376985269903_018_00016480504560409875_116_00003338886116348349_015_00000816496580927726_0,
  016_00011474439689778415_016_00008050631380269416_016_00016913885238242974_116_00016137848690166836_017_00004790186692534748_116_00003338886116348349_115_00001224744871391589_0,
  016_00011474439689778415_016_00008050631380269416_016_00005255826573366024_117_00035982678367222964_017_00009503391047275388_116_00003338886116348349_015_00000816496580927726_0,
  016_00011474439689778415_016_00008724640236325086_016_00011447427108300672_116_00009717583293203229_017_00012645527283769148_016_00029950108064592316_115_00001224744871391589_0,
  016_00011974400026054626_016_00009398649092380373_015_00001630030320324945_116_00013128349285340146_016_00002050086787500355_116_00003338886116348349_015_00000816496580927726_0,
  016_00011474439689778415_016_00008724640236325086_116_00011143547816460884_016_00010847329306445812_016_00002364300411149731_116_00003338886116348349_115_00001224744871391589_0,
  016_00011974400026054626_016_00009398649092380373_116_00003557442656540954_017_00004143980363799563_016_00002835620846623795_116_00003338886116348349_015_00000816496580927726_0,
  016_00011974400026054626_016_00009398649092380373_016_00007598594343341296_116_00010419799820996123_016_00003149834470273171_116_00003338886116348349_115_00001224744871391589_0,
  016_00012474360362331123_016_00010072657948436043_117_00025533993265515514_117_00049023842454805255_017_00036211549057472353_116_00003338886116348349_015_00000816496580927726_0,
  016_00012474360362331123_016_00010072657948436043_016_00008993098968326577_116_00010520116467823681_016_00003935368529396611_116_00003338886116348349_015_00000816496580927726_0,
  016_00012974320698607618_016_00010746666804491714_116_00004784606726528002_117_00029963679557569567_016_00004249582153045987_116_00003338886116348349_015_00000816496580927726_0,
  016_00012974320698607618_013_00000011420675660547_018_00017982973841959956_116_00005905550713756088_016_00004563795776695363_116_00003338886116348349_015_00000816496580927726_0,
  016_00012474360362331123_016_00010072657948436043_115_00001008372430147207_016_00012753345596169388_017_00048780094003447394_116_00003338886116348349_115_00001224744871391589_0,
  016_00012474360362331123_016_00010072657948436043_015_00000648299064335307_116_00007711250356652106_016_00005349329835818804_016_00029950108064592316_115_00001224744871391589_0,
  016_00012974320698607618_016_00010072657948436043_016_00019312433193217657_116_00012526449404374806_016_00006134863894942243_116_00003338886116348349_015_00000816496580927726_0,
  016_00013474281034883828_016_00010072657948436043_117_00024976191415521404_017_00014175645046555194_016_00006449077518591619_116_00003338886116348349_015_00000816496580927726_0,
  016_00012974320698607618_016_00009398649092380373_015_00001217256951329302_116_00010520116467823681_016_00006763291142240996_116_00003338886116348349_115_00001224744871391589_0,
  016_00012974320698607618_016_00009398649092380373_015_00000999714229831598_116_00008814733471755224_015_00000723461157771506_116_00003338886116348349_115_00001224744871391589_0,
  016_00012474360362331123_016_00009398649092380373_016_00005423167128364257_116_00005002700892308083_016_00007705932013189124_116_00003338886116348349_115_00001224744871391589_0,
  016_00012974320698607618_016_00010746666804491714_016_00005534727498363079_116_00010419799820996123_016_00008177252448663187_116_00003338886116348349_015_00000816496580927726_0,
  016_00012974320698607618_016_00010072657948436043_016_00003917102133380153_115_00000399953442403252_016_00008491466072312563_116_00003338886116348349_015_00000816496580927726_0,
  016_00013474281034883828_016_00010072657948436043_016_00000960752328411357_116_00005002700892308083_015_00000880567969596194_016_00029950108064592316_115_00001224744871391589_0,
  016_00012974320698607618_016_00010072657948436043_116_00005398188761521525_015_00001987582752092588_016_00009591213755085379_116_00003338886116348349_015_00000816496580927726_1,
  016_00013474281034883828_016_00010746666804491714_117_00021071578465562615_116_00001190668312860946_016_00009905427378734756_116_00003338886116348349_115_00001224744871391589_0,
  016_00012974320698607618_016_00010746666804491714_016_00028014142053125815_116_00020852731091061982_015_00001037674781420882_116_00003338886116348349_115_00001224744871391589_0,
  016_00013474281034883828_013_00000011420675660547_015_00001367863450827712_116_00014934048928236157_016_00010848068249682883_116_00003338886116348349_115_00001224744871391589_0,
  016_00012974320698607618_016_00010746666804491714_016_00023105485773177623_115_00001764259839258018_016_00011319388685156948_116_00003338886116348349_015_00000816496580927726_0,
  016_00012974320698607618_016_00010746666804491714_017_00020763560283995822_115_00000530365083279075_016_00011633602308806323_116_00003338886116348349_015_00000816496580927726_0,
  016_00012974320698607618_016_00010746666804491714_117_00011588947015662704_117_00009900350192058306_014_00000119478159324557_116_00003338886116348349_115_00001224744871391589_0,
  016_00012974320698607618_016_00010746666804491714_116_00017390928536394943_016_00028302425854440614_016_00012419136367929764_116_00003338886116348349_115_00001224744871391589_1,
  016_00012474360362331123_016_00010072657948436043_015_00002489045169315878_116_00021253997678372203_016_00012890456803403827_116_00003338886116348349_015_00000816496580927726_0,
  016_00012474360362331123_016_00010072657948436043_016_00014682677838266525_116_00013629932519477927_016_00013204670427053204_116_00003338886116348349_015_00000816496580927726_0,
  016_00012474360362331123_016_00010072657948436043_017_00035824210233836856_116_00007610933709824549_015_00001351888405070258_116_00003338886116348349_015_00000816496580927726_0,
  016_00012474360362331123_016_00010746666804491714_116_00007740956531496798_016_00014057462004927617_016_00013833097674351955_116_00003338886116348349_015_00000816496580927726_0,
  016_00011474439689778415_016_00010072657948436043_116_00008019857456493854_016_00014258095298582731_016_00014147311298001333_116_00003338886116348349_015_00000816496580927726_0,
  016_00010974479353501918_016_00009398649092380373_016_00025002012063157606_115_00002015051456326909_016_00014461524921650708_116_00003338886116348349_015_00000816496580927726_0,
  016_00010974479353501918_016_00009398649092380373_115_00000785251690149562_015_00000723593002065379_016_00014775738545300083_116_00003338886116348349_115_00001224744871391589_0,
  016_00011474439689778415_016_00009398649092380373_116_00011478228926457352_015_00002679767615202727_016_00015247058980774149_116_00003338886116348349_015_00000816496580927726_1,
  016_00010974479353501918_016_00008050631380269416_116_00008800780046485611_016_00009442896250860024_016_00015561272604423524_116_00003338886116348349_015_00000816496580927726_0,
  016_00010974479353501918_016_00008724640236325086_017_00017416749184031147_117_00038992177772049624_116_00016959837443286896_116_00003338886116348349_015_00000816496580927726_0,
  016_00010974479353501918_016_00008724640236325086_016_00006650331198351305_116_00009015366765410335_116_00016645623819637518_116_00003338886116348349_115_00001224744871391589_0,
  016_00010974479353501918_016_00008724640236325086_016_00011726328033297728_115_00001082106640830635_116_00016174303384163455_016_00029950108064592316_115_00001224744871391589_0,
  016_00010974479353501918_016_00008724640236325086_117_00016051361815615603_117_00028960513089293993_116_00015388769325040015_116_00003338886116348349_115_00001224744871391589_0,
  016_00011474439689778415_016_00010072657948436043_116_00008633439491487378_016_00010847329306445812_115_00001491744888956595_116_00003338886116348349_015_00000816496580927726_0,
  016_00011474439689778415_016_00009398649092380373_017_00017416749184031147_117_00027957346621018414_116_00014603235265916574_116_00003338886116348349_015_00000816496580927726_0,
  016_00011474439689778415_016_00009398649092380373_017_00017974551034025257_116_00007309983769341876_114_00000142890216422672_116_00003338886116348349_115_00001224744871391589_0,
  016_00011474439689778415_016_00009398649092380373_116_00003501662471541543_117_00026954180152742907_116_00013817701206793134_116_00003338886116348349_015_00000816496580927726_0,
  016_00011474439689778415_016_00009398649092380373_117_00030554209915462527_117_00004884517850680491_116_00013503487583143758_116_00003338886116348349_115_00001224744871391589_0,
  016_00011474439689778415_016_00009398649092380373_016_00020651157633203527_116_00016840065217959728_116_00013032167147669695_116_00003338886116348349_115_00001224744871391589_0,
  016_00011474439689778415_016_00010072657948436043_116_00005063507651525058_015_00000964352954451514_115_00001256084671219563_116_00003338886116348349_015_00000816496580927726_0,
  016_00011474439689778415_016_00009398649092380373_116_00002162938031555673_018_00021376474272484798_116_00012246633088546255_116_00003338886116348349_115_00001224744871391589_0,
  016_00010974479353501918_016_00009398649092380373_117_00016051361815615603_015_00000492864714361999_115_00001177531265307219_116_00003338886116348349_015_00000816496580927726_0,
  016_00010974479353501918_016_00008724640236325086_116_00008968120601483845_015_00001556221170734096_116_00011461099029422814_116_00003338886116348349_015_00000816496580927726_0,
  016_00010974479353501918_016_00009398649092380373_118_00004329100157804543_116_00002595101368446733_115_00001114688540577344_116_00003338886116348349_115_00001224744871391589_0,
  016_00010974479353501918_016_00009398649092380373_115_00000829875838149091_016_00008138779842101795_116_00010675564970299374_116_00003338886116348349_015_00000816496580927726_0,
  016_00010974479353501918_016_00009398649092380373_016_00005757848238360724_116_00007911883650307214_116_00010361351346649998_116_00003338886116348349_115_00001224744871391589_0,
  016_00011974400026054626_016_00010072657948436043_016_00013734414693276533_116_00015234998868718825_116_00009890030911175934_116_00003338886116348349_015_00000816496580927726_0,
  016_00011474439689778415_016_00010072657948436043_117_00007126532215709803_117_00017925681938262783_116_00009575817287526558_016_00029950108064592316_115_00001224744871391589_0,
  016_00011474439689778415_016_00010746666804491714_016_00007208133048345416_116_00006808400535204094_116_00008790283228403118_116_00003338886116348349_115_00001224744871391589_0,
  016_00011474439689778415_016_00010072657948436043_116_00001772476736559794_117_00024947847216191754_116_00008318962792929054_116_00003338886116348349_015_00000816496580927726_0,
  016_00011474439689778415_016_00010072657948436043_117_00004895324815733354_117_00021938347811365091_116_00008004749169279678_116_00003338886116348349_015_00000816496580927726_0,
  016_00011474439689778415_016_00009398649092380373_116_00003334321916543309_016_00005630863671412888_116_00007690535545630302_116_00003338886116348349_115_00001224744871391589_0,
  016_00011474439689778415_016_00009398649092380373_116_00006736913201507395_017_00013172478578279617_116_00007219215110156237_116_00003338886116348349_115_00001224744871391589_0,
  016_00011474439689778415_016_00009398649092380373_117_00019398172915580278_117_00012909849596884967_116_00006747894674682174_116_00003338886116348349_015_00000816496580927726_0,
  016_00011474439689778415_016_00009398649092380373_116_00010808866706464417_016_00007637196607964014_116_00006433681051032798_116_00003338886116348349_115_00001224744871391589_0,
  016_00010974479353501918_016_00009398649092380373_017_00048095850933707335_117_00046014343049978595_116_00005962360615558734_016_00029950108064592316_115_00001224744871391589_0,
  016_00011474439689778415_016_00009398649092380373_117_00015493559965621492_115_00000530365083279075_116_00005176826556435293_116_00003338886116348349_015_00000816496580927726_0,
  016_00011474439689778415_016_00009398649092380373_118_00021063155657627917_017_00018188310919657433_117_00048626129327859174_116_00003338886116348349_015_00000816496580927726_0,
  016_00011974400026054626_016_00010072657948436043_117_00018840371065586167_117_00020935181343089515_117_00045483993091365416_116_00003338886116348349_015_00000816496580927726_0,
  016_00011974400026054626_016_00010072657948436043_019_00068269368420777075_016_00003724847381689319_117_00042341856854871657_016_00029950108064592316_115_00001224744871391589_0,
  016_00011474439689778415_016_00009398649092380373_116_00009302801711480313_016_00006032130258723112_117_00034486516263637257_016_00029950108064592316_115_00001224744871391589_0,
  016_00010974479353501918_016_00008724640236325086_117_00016051361815615603_117_00033976345430671806_117_00026631175672402857_116_00003338886116348349_115_00001224744871391589_0,
  016_00010974479353501918_016_00008724640236325086_114_00000087449998614862_016_00006433396846033335_117_00021917971317662216_116_00003338886116348349_015_00000816496580927726_0,
  016_00011474439689778415_016_00008724640236325086_115_00000556552931651976_017_00018188310919657433_117_00018775835081168454_116_00003338886116348349_015_00000816496580927726_0,
  016_00010974479353501918_016_00008724640236325086_116_00009135461156482079_016_00007035296726998674_117_00015633698844674693_116_00003338886116348349_115_00001224744871391589_0,
  016_00010974479353501918_016_00008724640236325086_016_00021878321703190577_116_00018144181626717961_117_00010920494489934053_116_00003338886116348349_115_00001224744871391589_0,
  016_00010974479353501918_016_00008724640236325086_116_00003557442656540954_016_00008640363076239577_118_00062072901351934134_116_00003338886116348349_015_00000816496580927726_0,
  016_00010974479353501918_016_00008724640236325086_116_00008354538566490322_016_00006934980080171117_117_00003065153898699653_116_00003338886116348349_015_00000816496580927726_0,
  016_00011474439689778415_016_00008724640236325086_016_00006315650088354837_116_00007209667122514325_019_00007698233779410749_116_00003338886116348349_015_00000816496580927726_0,
  016_00011474439689778415_016_00008050631380269416_116_00008521879121488555_015_00001034574607230803_017_00003219118574287868_116_00003338886116348349_015_00000816496580927726_0,
  016_00010974479353501918_016_00008724640236325086_017_00021321362133989932_115_00001021916652734101_017_00006361254810781627_116_00003338886116348349_115_00001224744871391589_0,
  016_00011474439689778415_016_00008724640236325086_116_00005286628391522703_015_00000312294750072398_017_00011074459165522269_116_00003338886116348349_115_00001224744871391589_0,
  016_00010974479353501918_016_00008724640236325086_017_00008491919584125346_018_00021376474272484798_016_00001578766352026291_116_00003338886116348349_015_00000816496580927726_0,
  016_00010974479353501918_016_00008724640236325086_017_00035266408383842746_116_00007209667122514325_017_00018929799756756668_116_00003338886116348349_015_00000816496580927726_0,
  016_00010974479353501918_016_00008050631380269416_016_00008546857488331286_116_00011824232876581913_016_00002207193599325043_016_00029950108064592316_115_00001224744871391589_0,
  016_00011474439689778415_016_00008724640236325086_016_00007989055638337175_116_00005604600773273423_016_00002992727658448483_116_00003338886116348349_015_00000816496580927726_0,
  016_00011474439689778415_016_00008724640236325086_017_00041960030583772095_116_00005905550713756088_016_00003306941282097859_116_00003338886116348349_015_00000816496580927726_0,
  016_00011474439689778415_016_00008724640236325086_116_00011980250591452053_016_00007837829901619122_017_00036211549057472353_116_00003338886116348349_015_00000816496580927726_0,
  016_00011474439689778415_016_00009398649092380373_116_00005844430241516816_017_00003140813895523986_016_00003935368529396611_116_00003338886116348349_015_00000816496580927726_0,
  016_00011474439689778415_016_00008724640236325086_016_00004586464353373088_116_00008413466884444997_016_00004249582153045987_116_00003338886116348349_015_00000816496580927726_0,
  016_00011474439689778415_016_00008724640236325086_017_00048095850933707335_116_00006908717182031652_016_00004563795776695363_116_00003338886116348349_115_00001224744871391589_0,
  016_00010974479353501918_015_00000737662252421413_116_00008075637641493265_015_00001375651206444495_016_00005035116212169427_116_00003338886116348349_015_00000816496580927726_0,
  016_00010474519017225707_015_00000670261366815846_016_00002634157878393695_117_00049023842454805255_016_00005349329835818804_116_00003338886116348349_015_00000816496580927726_0,
  015_00000997455868094921_015_00000670261366815846_116_00006625352831508573_016_00005931813611895553_016_00005663543459468179_116_00003338886116348349_015_00000816496580927726_0]

/-- lr/data.csv 4002-4101 -/
def dataCsv40 : List ℕ := [
  016_00010474519017225707_016_00008050631380269416_115_00000651379246150975_015_00001034574607230803_016_00005977757083117555_116_00003338886116348349_015_00000816496580927726_0,
  016_00010474519017225707_016_00008050631380269416_015_00000330352009838663_117_00020935181343089515_016_00006291970706766932_016_00029950108064592316_115_00001224744871391589_0,
  016_00010474519017225707_016_00008050631380269416_115_00000472882654152859_016_00019273927639960546_016_00007077504765890371_116_00003338886116348349_015_00000816496580927726_1,
  016_00010474519017225707_016_00008050631380269416_117_00011031145165668592_117_00006890850787231645_016_00007391718389539748_116_00003338886116348349_015_00000816496580927726_0,
  015_00000997455868094921_015_00000737662252421413_116_00009247021526480902_016_00015762845000996077_016_00007705932013189124_116_00003338886116348349_015_00000816496580927726_0,
  015_00000997455868094921_015_00000737662252421413_115_00000740627542150033_016_00008840996369894685_016_00008020145636838499_116_00003338886116348349_115_00001224744871391589_0,
  016_00010474519017225707_016_00008050631380269416_116_00002609179511550963_016_00005028963790447548_016_00008491466072312563_116_00003338886116348349_015_00000816496580927726_0,
  016_00010474519017225707_016_00008050631380269416_116_00009470142266478546_016_00010847329306445812_015_00000880567969596194_116_00003338886116348349_015_00000816496580927726_0,
  016_00010974479353501918_016_00008050631380269416_117_00037805633965385993_016_00001919147738793301_016_00009119893319611315_116_00003338886116348349_115_00001224744871391589_0,
  016_00010974479353501918_016_00008050631380269416_016_00005088486018367789_115_00000399953442403252_016_00009591213755085379_116_00003338886116348349_015_00000816496580927726_0,
  016_00010474519017225707_015_00000737662252421413_017_00036939813933825083_117_00023944680747916175_016_00009905427378734756_116_00003338886116348349_115_00001224744871391589_0,
  016_00010974479353501918_015_00000737662252421413_116_00005119287836524469_016_00012151445715204048_015_00001037674781420882_116_00003338886116348349_015_00000816496580927726_0,
  016_00010974479353501918_016_00008050631380269416_116_00009972163931473248_016_00012853662242996937_016_00010690961437858195_116_00003338886116348349_115_00001224744871391589_0,
  016_00010974479353501918_015_00000737662252421413_016_00010554944148310093_116_00006005867360583647_015_00001116228187333226_116_00003338886116348349_115_00001224744871391589_0,
  016_00010474519017225707_015_00000670261366815846_016_00011224306368303028_116_00009216000059065448_016_00011633602308806323_116_00003338886116348349_015_00000816496580927726_0,
  016_00010474519017225707_015_00000602860481210279_116_00003445882286542132_017_00014175645046555194_014_00000119478159324557_116_00003338886116348349_015_00000816496580927726_0,
  016_00010474519017225707_015_00000602860481210279_016_00006650331198351305_116_00009717583293203229_016_00012262029556105076_116_00003338886116348349_015_00000816496580927726_0,
  015_00000997455868094921_016_00005354595956047504_015_00002026069633820765_116_00016639431924304617_016_00012576243179754452_116_00003338886116348349_015_00000816496580927726_0,
  015_00000997455868094921_016_00005354595956047504_015_00001362285432327771_116_00016940381864787284_016_00012890456803403827_116_00003338886116348349_115_00001224744871391589_0,
  015_00000997455868094921_015_00000602860481210279_017_00010723126984101795_016_00005329913730930215_016_00013361777238877892_116_00003338886116348349_115_00001224744871391589_0,
  016_00010474519017225707_015_00000670261366815846_116_00010474185596467949_016_00009543212897687582_016_00013833097674351955_116_00003338886116348349_015_00000816496580927726_0,
  016_00010474519017225707_015_00000602860481210279_116_00004840386911527413_015_00000252104761975864_016_00014147311298001333_016_00029950108064592316_115_00001224744871391589_0,
  016_00010474519017225707_015_00000602860481210279_016_00007096572678346594_116_00009316316705893005_016_00014932845357124773_116_00003338886116348349_015_00000816496580927726_0,
  016_00010474519017225707_015_00000670261366815846_116_00009749043191475603_016_00010044796131825364_016_00015247058980774149_116_00003338886116348349_015_00000816496580927726_0,
  016_00010474519017225707_015_00000670261366815846_116_00010474185596467949_015_00002037741075506366_016_00015561272604423524_116_00003338886116348349_115_00001224744871391589_1,
  016_00010474519017225707_015_00000670261366815846_016_00010610724333309502_116_00013930882459960594_015_00001603259303989759_016_00029950108064592316_115_00001224744871391589_0,
  016_00010474519017225707_015_00000670261366815846_017_00019647956584007595_116_00005905550713756088_016_00016818127099021027_116_00003338886116348349_115_00001224744871391589_0,
  015_00000997455868094921_015_00000670261366815846_017_00015185541784054696_117_00021938347811365091_016_00017289447534495093_116_00003338886116348349_015_00000816496580927726_0,
  015_00000997455868094921_015_00000602860481210279_116_00004673046356529179_016_00003223264147551537_016_00017603661158144468_116_00003338886116348349_015_00000816496580927726_0,
  015_00000997455868094921_015_00000602860481210279_015_00000782171508333894_116_00011021699701961463_016_00017917874781793846_016_00029950108064592316_115_00001224744871391589_0,
  015_00000997455868094921_016_00005354595956047504_015_00003370372092306576_115_00002275874738078555_016_00018703408840917284_116_00003338886116348349_015_00000816496580927726_0,
  015_00000997455868094921_016_00005354595956047504_116_00005119287836524469_016_00002721680913413756_016_00019017622464566661_116_00003338886116348349_015_00000816496580927726_0,
  015_00000997455868094921_016_00005354595956047504_116_00008689219676486789_015_00001034574607230803_016_00019331836088216037_116_00003338886116348349_015_00000816496580927726_1,
  016_00010474519017225707_016_00005354595956047504_016_00013009272288284186_116_00012927715991685031_016_00019646049711865412_116_00003338886116348349_015_00000816496580927726_0,
  015_00000997455868094921_016_00005354595956047504_017_00042517832433766206_116_00011021699701961463_015_00001996026333551479_116_00003338886116348349_015_00000816496580927726_1,
  015_00000997455868094921_016_00005354595956047504_115_00000472882654152859_117_00033976345430671806_116_00016959837443286896_116_00003338886116348349_015_00000816496580927726_0,
  015_00000997455868094921_016_00005354595956047504_116_00005230848206523292_016_00009141946310377358_116_00016645623819637518_116_00003338886116348349_015_00000816496580927726_0,
  015_00000997455868094921_016_00005354595956047504_016_00003917102133380153_117_00048020675986529676_116_00016331410195988143_116_00003338886116348349_115_00001224744871391589_0,
  015_00000997455868094921_015_00000602860481210279_018_00040295047841724455_116_00005604600773273423_116_00015860089760514078_116_00003338886116348349_015_00000816496580927726_0,
  016_00009474598344672714_016_00005354595956047504_016_00001574334363404881_117_00006890850787231645_116_00015545876136864702_116_00003338886116348349_015_00000816496580927726_0,
  015_00000997455868094921_016_00005354595956047504_015_00001273037136328713_116_00012626766051202365_116_00015231662513215327_116_00003338886116348349_015_00000816496580927726_0,
  015_00000997455868094921_015_00000602860481210279_019_00012489183421365824_116_00005805234066928531_115_00001491744888956595_116_00003338886116348349_015_00000816496580927726_0,
  015_00000997455868094921_015_00000602860481210279_017_00014069938084066472_117_00009900350192058306_116_00014603235265916574_116_00003338886116348349_015_00000816496580927726_0,
  015_00000997455868094921_016_00005354595956047504_116_00005230848206523292_016_00006333080199205777_114_00000142890216422672_116_00003338886116348349_115_00001224744871391589_0,
  016_00009474598344672714_015_00000602860481210279_116_00006681133016507984_016_00007737513254791571_116_00013817701206793134_116_00003338886116348349_115_00001224744871391589_1,
  016_00008974638008396503_015_00000602860481210279_016_00019089312453220013_116_00019147348094993524_115_00001334638077131907_116_00003338886116348349_115_00001224744871391589_0,
  016_00009474598344672714_015_00000602860481210279_116_00006569572646509162_016_00006232763552378227_116_00012875060335845006_116_00003338886116348349_115_00001224744871391589_0,
  016_00009474598344672714_015_00000670261366815846_116_00004673046356529179_016_00006032130258723112_116_00012403739900370943_116_00003338886116348349_015_00000816496580927726_0,
  016_00009474598344672714_015_00000670261366815846_015_00006427126230274313_116_00027975213015818476_116_00012089526276721567_116_00003338886116348349_015_00000816496580927726_1,
  016_00008974638008396503_016_00005354595956047504_117_00018840371065586167_017_00012169312110004112_115_00001177531265307219_116_00003338886116348349_015_00000816496580927726_0,
  016_00008974638008396503_016_00005354595956047504_116_00004617266171529768_015_00000663403013968845_116_00011461099029422814_116_00003338886116348349_015_00000816496580927726_0,
  016_00008974638008396503_016_00005354595956047504_116_00008689219676486789_016_00006433396846033335_115_00001114688540577344_116_00003338886116348349_015_00000816496580927726_0,
  016_00009474598344672714_016_00005354595956047504_017_00013512136234072358_117_00007894017255507152_116_00010832671782124061_116_00003338886116348349_115_00001224744871391589_0,
  016_00009474598344672714_015_00000602860481210279_015_00004274011089297038_116_00023962547142716226_116_00010361351346649998_116_00003338886116348349_115_00001224744871391589_0,
  016_00009474598344672714_015_00000602860481210279_116_00004617266171529768_016_00003624530734861761_116_00009890030911175934_116_00003338886116348349_115_00001224744871391589_0,
  015_00000997455868094921_015_00000670261366815846_016_00018196829493229434_116_00017341648452097511_115_00000941871047570187_116_00003338886116348349_015_00000816496580927726_0,
  016_00009474598344672714_015_00000602860481210279_016_00003247739913387218_117_00030966846025845146_116_00009104496852052494_116_00003338886116348349_015_00000816496580927726_0,
  015_00000997455868094921_015_00000602860481210279_116_00002441838956552729_117_00013913016065160544_116_00008790283228403118_116_00003338886116348349_015_00000816496580927726_0,
  015_00000997455868094921_015_00000602860481210279_116_00004617266171529768_015_00000723593002065379_116_00008476069604753742_116_00003338886116348349_115_00001224744871391589_0,
  016_00009474598344672714_016_00005354595956047504_116_00004115244506535067_016_00004326747262654651_116_00008004749169279678_116_00003338886116348349_015_00000816496580927726_0,
  015_00000997455868094921_015_00000602860481210279_116_00010418405411468539_015_00001556221170734096_116_00007690535545630302_116_00003338886116348349_115_00001224744871391589_0,
  016_00009474598344672714_016_00005354595956047504_016_00020483817078205293_116_00018344814920373074_116_00007219215110156237_116_00003338886116348349_015_00000816496580927726_0,
  015_00000997455868094921_015_00000602860481210279_116_00005175068021523881_016_00004025797322171985_116_00006905001486506862_116_00003338886116348349_015_00000816496580927726_0,
  015_00000997455868094921_016_00005354595956047504_015_00002282658484818057_114_00000203511478569242_116_00006590787862857486_116_00003338886116348349_015_00000816496580927726_0,
  016_00009474598344672714_016_00004680587099991834_116_00003278541731543898_016_00007135613373826232_115_00000627657423920811_116_00003338886116348349_015_00000816496580927726_0,
  016_00009474598344672714_016_00004680587099991834_117_00015493559965621492_117_00023944680747916175_116_00005962360615558734_116_00003338886116348349_115_00001224744871391589_0,
  016_00009474598344672714_016_00004680587099991834_117_00037247832115391877_016_00007035296726998674_115_00000549104018008467_116_00003338886116348349_115_00001224744871391589_0,
  016_00009474598344672714_016_00004680587099991834_116_00006123331166513871_016_00011047962600100927_116_00005019719744610606_116_00003338886116348349_015_00000816496580927726_0,
  016_00009474598344672714_016_00004680587099991834_116_00007462055606499741_016_00008840996369894685_115_00000470550612096123_116_00003338886116348349_015_00000816496580927726_0,
  016_00009474598344672714_016_00004680587099991834_116_00007462055606499741_015_00000793814654844668_116_00004391292497311854_116_00003338886116348349_115_00001224744871391589_0,
  015_00000997455868094921_016_00004680587099991834_116_00010641526151466183_016_00018170444524857428_115_00000391997206183779_116_00003338886116348349_015_00000816496580927726_0,
  016_00009474598344672714_017_00040065782439365477_116_00011589789296456174_016_00028703692441750834_117_00036057584381884134_116_00003338886116348349_015_00000816496580927726_1,
  016_00009474598344672714_017_00040065782439365477_016_00003972882318379565_116_00006607767241548985_117_00032915448145390375_116_00003338886116348349_015_00000816496580927726_0,
  016_00009474598344672714_017_00040065782439365477_116_00007071594311503863_016_00006533713492860893_117_00029773311908896616_116_00003338886116348349_115_00001224744871391589_0,
  015_00000997455868094921_016_00004680587099991834_116_00004784606726528002_016_00002721680913413756_117_00025060107554155975_116_00003338886116348349_015_00000816496580927726_0,
  015_00000997455868094921_017_00040065782439365477_017_00024668173233954607_117_00010903516660333884_117_00021917971317662216_116_00003338886116348349_015_00000816496580927726_0,
  015_00000997455868094921_017_00040065782439365477_019_00012489183421365824_116_00002595101368446733_117_00018775835081168454_116_00003338886116348349_115_00001224744871391589_0,
  015_00000997455868094921_017_00033325693878808776_016_00005367386943364846_118_00018750184458538297_117_00014062630726427813_116_00003338886116348349_015_00000816496580927726_0,
  016_00010474519017225707_016_00004680587099991834_115_00001365365614143439_016_00022484060338442347_117_00010920494489934053_016_00029950108064592316_115_00001224744871391589_1,
  015_00000997455868094921_017_00033325693878808776_016_00024499990398162903_116_00018043864979890403_117_00003065153898699653_116_00003338886116348349_015_00000816496580927726_0,
  015_00000997455868094921_016_00002658560531825208_116_00010139504486471482_015_00001807012787802987_019_00007698233779410749_116_00003338886116348349_015_00000816496580927726_1,
  015_00000997455868094921_016_00002658560531825208_116_00011310888371459118_016_00018270761171684984_017_00003219118574287868_116_00003338886116348349_015_00000816496580927726_1,
  015_00000997455868094921_016_00002658560531825208_016_00001630114548404292_117_00007894017255507152_017_00006361254810781627_116_00003338886116348349_015_00000816496580927726_0,
  015_00000997455868094921_016_00002658560531825208_016_00001574334363404881_117_00035982678367222964_017_00009503391047275388_116_00003338886116348349_115_00001224744871391589_0,
  015_00000997455868094921_016_00002658560531825208_016_00004028662503378976_117_00044008010113427437_016_00001421659540201603_116_00003338886116348349_015_00000816496580927726_0,
  015_00000997455868094921_017_00033325693878808776_016_00016858105053243564_114_00000164387986306495_016_00001735873163850979_016_00029950108064592316_115_00001224744871391589_0,
  015_00000997455868094921_017_00033325693878808776_016_00001574334363404881_117_00038992177772049624_016_00002521407222974419_116_00003338886116348349_015_00000816496580927726_0,
  016_00009474598344672714_016_00002658560531825208_116_00009079680971482668_015_00001496031182637562_016_00002835620846623795_116_00003338886116348349_015_00000816496580927726_1,
  016_00009474598344672714_017_00033325693878808776_116_00003445882286542132_017_00024207309729310825_016_00003149834470273171_116_00003338886116348349_015_00000816496580927726_0,
  016_00009474598344672714_017_00033325693878808776_017_00028572786183913396_017_00003140813895523986_016_00003464048093922547_116_00003338886116348349_115_00001224744871391589_0,
  015_00000997455868094921_017_00033325693878808776_016_00036715850913033967_116_00024263497083198895_016_00003935368529396611_116_00003338886116348349_015_00000816496580927726_0,
  015_00000997455868094921_016_00002658560531825208_016_00003136179543388396_116_00007109350475686768_016_00004249582153045987_116_00003338886116348349_115_00001224744871391589_0,
  015_00000997455868094921_017_00033325693878808776_016_00015240479688260637_116_00015636265456029053_016_00004720902588520051_016_00029950108064592316_115_00001224744871391589_0,
  015_00000997455868094921_017_00033325693878808776_017_00019090154734013484_116_00007911883650307214_016_00005506436647643491_116_00003338886116348349_115_00001224744871391589_0,
  015_00000997455868094921_017_00033325693878808776_016_00006259869903355426_116_00009115683412237894_016_00005977757083117555_116_00003338886116348349_015_00000816496580927726_0,
  015_00000997455868094921_017_00033325693878808776_117_00044499256165315343_016_00003223264147551537_016_00006291970706766932_016_00029950108064592316_115_00001224744871391589_0,
  016_00009474598344672714_016_00002658560531825208_116_00009414362081479135_016_00011750179127893825_016_00007077504765890371_116_00003338886116348349_015_00000816496580927726_1,
  016_00009474598344672714_016_00002658560531825208_117_00011588947015662704_116_00005905550713756088_016_00007391718389539748_116_00003338886116348349_015_00000816496580927726_0,
  015_00000997455868094921_017_00019845516757699214_016_00006092529348357192_116_00010419799820996123_016_00007705932013189124_116_00003338886116348349_015_00000816496580927726_0,
  015_00000997455868094921_016_00002658560531825208_116_00004171024691534478_015_00000723593002065379_016_00008020145636838499_116_00003338886116348349_015_00000816496580927726_0]

/-- lr/data.csv 4102-4201 -/
def dataCsv41 : List ℕ := [
  015_00000997455868094921_016_00002658560531825208_015_00001987023504321177_116_00016840065217959728_016_00008334359260487876_116_00003338886116348349_015_00000816496580927726_0,
  016_00009474598344672714_016_00002658560531825208_016_00019256653008218247_116_00016639431924304617_016_00008648572884137251_116_00003338886116348349_015_00000816496580927726_0,
  015_00000997455868094921_016_00002658560531825208_117_00049519472815262355_015_00000663403013968845_016_00008962786507786628_116_00003338886116348349_015_00000816496580927726_0,
  015_00000997455868094921_016_00002658560531825208_116_00005063507651525058_016_00003423897441206646_016_00009277000131436004_116_00003338886116348349_015_00000816496580927726_0,
  016_00010474519017225707_017_00033325693878808776_116_00008354538566490322_015_00000964352954451514_016_00009591213755085379_116_00003338886116348349_015_00000816496580927726_0,
  015_00000997455868094921_017_00040065782439365477_017_00024668173233954607_117_00048020675986529676_016_00009905427378734756_116_00003338886116348349_015_00000816496580927726_0,
  016_00009474598344672714_017_00033325693878808776_116_00006346451906511517_016_00011148279246928485_016_00010219641002384132_116_00003338886116348349_015_00000816496580927726_0,
  015_00000997455868094921_017_00033325693878808776_016_00015073139133262403_116_00012927715991685031_016_00010533854626033508_116_00003338886116348349_015_00000816496580927726_0,
  016_00009474598344672714_017_00033325693878808776_016_00019702894488213536_116_00018244498273545515_016_00010848068249682883_116_00003338886116348349_015_00000816496580927726_0,
  016_00009474598344672714_017_00040065782439365477_116_00003557442656540954_016_00007837829901619122_015_00001116228187333226_116_00003338886116348349_115_00001224744871391589_0,
  015_00000997455868094921_017_00040065782439365477_116_00009916383746473837_016_00006734346786516008_016_00011633602308806323_116_00003338886116348349_015_00000816496580927726_0,
  015_00000997455868094921_017_00040065782439365477_017_00013512136234072358_017_00010162979173452956_014_00000119478159324557_116_00003338886116348349_115_00001224744871391589_0,
  016_00009474598344672714_017_00033325693878808776_117_00037247832115391877_118_00028781849141293357_016_00012419136367929764_016_00029950108064592316_115_00001224744871391589_0,
  015_00000997455868094921_017_00040065782439365477_115_00001192447040645264_016_00015361578413685846_016_00013204670427053204_116_00003338886116348349_015_00000816496580927726_0,
  015_00000997455868094921_017_00040065782439365477_115_00001008372430147207_015_00001315461218347961_015_00001351888405070258_116_00003338886116348349_015_00000816496580927726_0,
  015_00000997455868094921_017_00040065782439365477_116_00010753086521465005_016_00014759678532720513_016_00013833097674351955_016_00029950108064592316_115_00001224744871391589_0,
  015_00000997455868094921_017_00033325693878808776_116_00008800780046485611_016_00018471394465340092_016_00014618631733475396_116_00003338886116348349_115_00001224744871391589_0,
  016_00009474598344672714_017_00033325693878808776_116_00011087767631461474_016_00015762845000996077_015_00001508995216894946_116_00003338886116348349_015_00000816496580927726_1,
  015_00000997455868094921_017_00040065782439365477_115_00000963748282147678_016_00007737513254791571_016_00015404165792598836_116_00003338886116348349_015_00000816496580927726_0,
  016_00010474519017225707_016_00004680587099991834_115_00001192447040645264_016_00005129280437275106_016_00015718379416248212_116_00003338886116348349_015_00000816496580927726_1,
  016_00010474519017225707_016_00004680587099991834_116_00009079680971482668_016_00006333080199205777_015_00001603259303989759_116_00003338886116348349_115_00001224744871391589_1,
  016_00010474519017225707_016_00004680587099991834_116_00009749043191475603_016_00007837829901619122_016_00016503913475371652_116_00003338886116348349_115_00001224744871391589_1,
  016_00010974479353501918_017_00040065782439365477_117_00042825850615333005_016_00003624530734861761_116_00016959837443286896_116_00003338886116348349_015_00000816496580927726_0,
  016_00010474519017225707_017_00040065782439365477_117_00012146748865656816_117_00010903516660333884_116_00016645623819637518_116_00003338886116348349_115_00001224744871391589_0,
  016_00010474519017225707_017_00040065782439365477_116_00008577659306487967_016_00013656195417617392_116_00016174303384163455_116_00003338886116348349_015_00000816496580927726_0,
  016_00010474519017225707_017_00040065782439365477_115_00000556552931651976_019_00013131449069732513_116_00015860089760514078_116_00003338886116348349_015_00000816496580927726_0,
  015_00000997455868094921_017_00040065782439365477_016_00004698024723371911_115_00000570491742010098_116_00015545876136864702_116_00003338886116348349_115_00001224744871391589_0,
  015_00000997455868094921_017_00040065782439365477_115_00000562130950151917_016_00003223264147551537_115_00001507455570139064_016_00029950108064592316_115_00001224744871391589_0,
  016_00009474598344672714_016_00002658560531825208_016_00009439340448321867_116_00015234998868718825_114_00000142890216422672_116_00003338886116348349_015_00000816496580927726_0,
  016_00008974638008396503_017_00019845516757699214_016_00007096572678346594_116_00007309983769341876_116_00013974808018617824_116_00003338886116348349_115_00001224744871391589_0,
  016_00009474598344672714_016_00002658560531825208_115_00001409989762142968_016_00022885326925752567_116_00013503487583143758_116_00003338886116348349_015_00000816496580927726_1,
  016_00009474598344672714_017_00019845516757699214_117_00029996408065468416_016_00006333080199205777_116_00013189273959494383_116_00003338886116348349_015_00000816496580927726_0,
  016_00008974638008396503_017_00019845516757699214_116_00007238934866502097_015_00001255271230251427_116_00012875060335845006_116_00003338886116348349_115_00001224744871391589_0,
  016_00008974638008396503_017_00019845516757699214_016_00012618810993288307_115_00001272708269802992_116_00012403739900370943_116_00003338886116348349_015_00000816496580927726_0,
  016_00008974638008396503_017_00019845516757699214_016_00008323736748333642_116_00011222332995616573_116_00012089526276721567_116_00003338886116348349_015_00000816496580927726_0,
  016_00008474677672120007_017_00019845516757699214_016_00013845975063275355_116_00013328982578995259_115_00001177531265307219_116_00003338886116348349_115_00001224744871391589_0,
  016_00008474677672120007_016_00000636533963658965_116_00002888080436548019_016_00008038463195274238_116_00011303992217598127_116_00003338886116348349_015_00000816496580927726_0,
  016_00008474677672120007_016_00000636533963658965_116_00008633439491487378_016_00010546379365963146_116_00010989778593948751_116_00003338886116348349_015_00000816496580927726_0,
  016_00008474677672120007_017_00013105428197142516_116_00012705392996444398_015_00001746822799706453_116_00010675564970299374_116_00003338886116348349_015_00000816496580927726_1,
  016_00008474677672120007_017_00013105428197142516_016_00004530684168373677_116_00009216000059065448_116_00010361351346649998_016_00029950108064592316_115_00001224744871391589_0,
  016_00008474677672120007_017_00013105428197142516_116_00011589789296456174_015_00002128026057651167_116_00009575817287526558_116_00003338886116348349_015_00000816496580927726_1,
  016_00008474677672120007_016_00000636533963658965_117_00042825850615333005_117_00016922515469987276_116_00009261603663877183_016_00029950108064592316_115_00001224744871391589_0,
  016_00008474677672120007_016_00000636533963658965_116_00006402232091510928_015_00001024542942548048_116_00008476069604753742_116_00003338886116348349_015_00000816496580927726_0,
  016_00008474677672120007_016_00000636533963658965_116_00002162938031555673_117_00003881351382404913_116_00008161855981104366_116_00003338886116348349_015_00000816496580927726_0,
  016_00008974638008396503_016_00000636533963658965_016_00011112745998304205_116_00012024866170237025_115_00000784764235745499_116_00003338886116348349_015_00000816496580927726_0,
  016_00008974638008396503_017_00019845516757699214_116_00004115244506535067_016_00006533713492860893_116_00007533428733805614_116_00003338886116348349_115_00001224744871391589_0,
  016_00008974638008396503_017_00019845516757699214_117_00031669813615450754_017_00014175645046555194_115_00000706210829833155_116_00003338886116348349_015_00000816496580927726_0,
  016_00009474598344672714_017_00019845516757699214_115_00000785251690149562_016_00004025797322171985_116_00006747894674682174_116_00003338886116348349_015_00000816496580927726_0,
  016_00009474598344672714_017_00019845516757699214_015_00002416530928816644_116_00018746081507683297_116_00006433681051032798_116_00003338886116348349_015_00000816496580927726_0,
  016_00009474598344672714_016_00002658560531825208_017_00035824210233836856_117_00023944680747916175_116_00006119467427383422_116_00003338886116348349_015_00000816496580927726_0,
  016_00009474598344672714_016_00002658560531825208_016_00003972882318379565_116_00005203334185963199_116_00005805253803734046_116_00003338886116348349_015_00000816496580927726_0,
  016_00009474598344672714_016_00002658560531825208_116_00009247021526480902_016_00008038463195274238_115_00000549104018008467_116_00003338886116348349_115_00001224744871391589_1,
  015_00000997455868094921_017_00033325693878808776_116_00006346451906511517_016_00004728013849964882_116_00005019719744610606_116_00003338886116348349_115_00001224744871391589_0,
  015_00000997455868094921_016_00002658560531825208_116_00018227631311386112_015_00001566252835416852_117_00045483993091365416_116_00003338886116348349_115_00001224744871391589_1,
  015_00000997455868094921_016_00002658560531825208_016_00016132962648251217_116_00013730249166305482_117_00040770788736624775_116_00003338886116348349_115_00001224744871391589_0,
  015_00000997455868094921_017_00033325693878808776_116_00009414362081479135_016_00004427063909482209_117_00036057584381884134_116_00003338886116348349_015_00000816496580927726_1,
  015_00000997455868094921_017_00033325693878808776_015_00001585406172325416_116_00014934048928236157_117_00032915448145390375_116_00003338886116348349_115_00001224744871391589_0,
  015_00000997455868094921_017_00033325693878808776_116_00015382841876416138_016_00020678360695546334_117_00028202243790649734_116_00003338886116348349_015_00000816496580927726_1,
  016_00009474598344672714_016_00002658560531825208_016_00019535553933215304_116_00018545448214028186_117_00025060107554155975_116_00003338886116348349_015_00000816496580927726_0,
  015_00000997455868094921_017_00033325693878808776_016_00005590507683362491_116_00007109350475686768_117_00021917971317662216_116_00003338886116348349_115_00001224744871391589_0,
  015_00000997455868094921_016_00002658560531825208_016_00003861321948380742_116_00006908717182031652_117_00017204766962921575_116_00003338886116348349_115_00001224744871391589_0,
  016_00009474598344672714_017_00019845516757699214_016_00006371430273354248_116_00007610933709824549_117_00012491562608180934_016_00029950108064592316_115_00001224744871391589_0,
  015_00000997455868094921_016_00002658560531825208_017_00029130588033907506_115_00001021916652734101_118_00046362220169465326_116_00003338886116348349_015_00000816496580927726_0,
  016_00010474519017225707_017_00033325693878808776_016_00008769978228328932_116_00009115683412237894_118_00014940857804527726_116_00003338886116348349_015_00000816496580927726_0,
  016_00010974479353501918_017_00040065782439365477_116_00010753086521465005_016_00007536879961136456_018_00016480504560409875_116_00003338886116348349_015_00000816496580927726_1,
  016_00010974479353501918_017_00033325693878808776_116_00001772476736559794_017_00004143980363799563_017_00004790186692534748_116_00003338886116348349_115_00001224744871391589_0,
  016_00011474439689778415_017_00040065782439365477_117_00007684334065703917_016_00008740679723067134_017_00009503391047275388_016_00029950108064592316_115_00001224744871391589_0,
  016_00011474439689778415_016_00004680587099991834_017_00011280928834095907_116_00006106184007411204_016_00001735873163850979_116_00003338886116348349_115_00001224744871391589_0,
  016_00010974479353501918_017_00040065782439365477_016_00005200046388366611_116_00009516949999548118_016_00002207193599325043_116_00003338886116348349_015_00000816496580927726_0,
  016_00010474519017225707_017_00033325693878808776_017_00011280928834095907_115_00000399953442403252_016_00002521407222974419_116_00003338886116348349_015_00000816496580927726_0,
  016_00010974479353501918_017_00040065782439365477_116_00010251064856470304_016_00011549545834238708_016_00002835620846623795_116_00003338886116348349_115_00001224744871391589_1,
  016_00010974479353501918_017_00033325693878808776_015_00001635608338824886_116_00016338481983821946_016_00003306941282097859_116_00003338886116348349_115_00001224744871391589_0,
  016_00010974479353501918_017_00040065782439365477_116_00008521879121488555_016_00010044796131825364_016_00003778261717571923_116_00003338886116348349_015_00000816496580927726_0,
  016_00010974479353501918_017_00040065782439365477_116_00010753086521465005_016_00009242262957204916_016_00004092475341221299_116_00003338886116348349_115_00001224744871391589_1,
  016_00011474439689778415_016_00004680587099991834_117_00022187182165550842_117_00021938347811365091_016_00004563795776695363_116_00003338886116348349_015_00000816496580927726_0,
  016_00011474439689778415_016_00004680587099991834_016_00004084442688378387_116_00006607767241548985_017_00048780094003447394_116_00003338886116348349_015_00000816496580927726_0,
  016_00011474439689778415_016_00004680587099991834_018_00029139010841842207_118_00028781849141293357_016_00005192223023994115_116_00003338886116348349_115_00001224744871391589_0,
  016_00012474360362331123_015_00000602860481210279_116_00003445882286542132_117_00007894017255507152_016_00005663543459468179_116_00003338886116348349_015_00000816496580927726_0,
  016_00012474360362331123_015_00000602860481210279_016_00004753804908371322_116_00005604600773273423_016_00005977757083117555_116_00003338886116348349_015_00000816496580927726_0,
  016_00011974400026054626_015_00000602860481210279_115_00001058574596646677_016_00006132446905550669_016_00006291970706766932_116_00003338886116348349_015_00000816496580927726_1,
  016_00011974400026054626_016_00005354595956047504_016_00008212176378334819_116_00011222332995616573_016_00006606184330416307_116_00003338886116348349_015_00000816496580927726_0,
  016_00011974400026054626_016_00004680587099991834_117_00009915541465680366_017_00004143980363799563_016_00006920397954065683_116_00003338886116348349_115_00001224744871391589_0,
  016_00011974400026054626_016_00004680587099991834_116_00009860603561474425_016_00014859995179548064_016_00007391718389539748_116_00003338886116348349_015_00000816496580927726_1,
  016_00011474439689778415_016_00004680587099991834_116_00007629396161497976_016_00010947645953273368_016_00007705932013189124_116_00003338886116348349_015_00000816496580927726_0,
  016_00010974479353501918_017_00040065782439365477_115_00001142244874145794_016_00013254928830307169_016_00008020145636838499_116_00003338886116348349_015_00000816496580927726_1,
  016_00010974479353501918_017_00040065782439365477_116_00010641526151466183_016_00008439729782584461_016_00008334359260487876_116_00003338886116348349_015_00000816496580927726_1,
  016_00010974479353501918_017_00040065782439365477_017_00017416749184031147_116_00005403967479618307_016_00008648572884137251_116_00003338886116348349_115_00001224744871391589_0,
  016_00010974479353501918_016_00004680587099991834_017_00034708606533848635_116_00007009033828859209_016_00009119893319611315_116_00003338886116348349_115_00001224744871391589_0,
  016_00011474439689778415_016_00005354595956047504_016_00004028662503378976_116_00008212833590789884_016_00009591213755085379_116_00003338886116348349_115_00001224744871391589_0,
  016_00011974400026054626_015_00000602860481210279_017_00011838730684090021_116_00008212833590789884_016_00010062534190559445_116_00003338886116348349_015_00000816496580927726_0,
  016_00011974400026054626_015_00000602860481210279_116_00005286628391522703_017_00007153479768626296_015_00001037674781420882_016_00029950108064592316_115_00001224744871391589_0,
  016_00011974400026054626_015_00000670261366815846_116_00012370711886447932_016_00019474560933615657_015_00001116228187333226_116_00003338886116348349_015_00000816496580927726_0,
  016_00012474360362331123_015_00000670261366815846_116_00004226804876533889_015_00000312294750072398_016_00011476495496981636_116_00003338886116348349_115_00001224744871391589_0,
  016_00011974400026054626_015_00000737662252421413_016_00005311606758365435_116_00005805234066928531_014_00000119478159324557_116_00003338886116348349_015_00000816496580927726_0,
  016_00011974400026054626_015_00000670261366815846_116_00006458012276510339_016_00006232763552378227_016_00012262029556105076_116_00003338886116348349_015_00000816496580927726_0,
  016_00012474360362331123_015_00000670261366815846_017_00005145108484160671_115_00000159193490017117_016_00012576243179754452_116_00003338886116348349_015_00000816496580927726_0,
  016_00012474360362331123_015_00000670261366815846_017_00013512136234072358_117_00044008010113427437_016_00012890456803403827_116_00003338886116348349_115_00001224744871391589_0,
  016_00011974400026054626_015_00000670261366815846_017_00019090154734013484_117_00034979511898947385_016_00013361777238877892_116_00003338886116348349_015_00000816496580927726_0,
  016_00011974400026054626_015_00000737662252421413_116_00005955990611515638_017_00045273805563097663_016_00013675990862527267_116_00003338886116348349_115_00001224744871391589_0,
  016_00012474360362331123_015_00000737662252421413_016_00005534727498363079_116_00008012200297134773_016_00014147311298001333_116_00003338886116348349_115_00001224744871391589_0]

/-- lr/data.csv 4202-4301 -/
def dataCsv42 : List ℕ := [
  016_00012474360362331123_015_00000737662252421413_017_00017974551034025257_116_00005805234066928531_016_00014618631733475396_116_00003338886116348349_015_00000816496580927726_0,
  016_00011974400026054626_015_00000670261366815846_016_00037496773503025724_115_00002466476367050912_016_00014932845357124773_116_00003338886116348349_015_00000816496580927726_0,
  016_00011974400026054626_015_00000670261366815846_017_00009049721434119458_017_00006150313300350718_016_00015247058980774149_116_00003338886116348349_015_00000816496580927726_0,
  016_00011474439689778415_015_00000602860481210279_017_00010723126984101795_115_00000811251694396233_016_00015561272604423524_116_00003338886116348349_115_00001224744871391589_0,
  016_00011474439689778415_015_00000602860481210279_117_00008799937765692141_016_00003223264147551537_015_00001603259303989759_116_00003338886116348349_115_00001224744871391589_0,
  016_00011474439689778415_016_00005354595956047504_016_00010276043223313036_116_00013730249166305482_016_00016503913475371652_116_00003338886116348349_015_00000816496580927726_0,
  016_00011474439689778415_016_00005354595956047504_016_00010164482853314214_114_00000116235995829268_016_00016818127099021027_116_00003338886116348349_115_00001224744871391589_0,
  016_00011474439689778415_015_00000602860481210279_016_00009550900818320689_116_00009617266646375675_016_00017289447534495093_116_00003338886116348349_115_00001224744871391589_1,
  016_00011474439689778415_015_00000602860481210279_017_00049211454633695556_116_00007711250356652106_116_00016959837443286896_116_00003338886116348349_115_00001224744871391589_0,
  016_00010974479353501918_016_00005354595956047504_115_00000651379246150975_016_00007035296726998674_115_00001648851700781283_116_00003338886116348349_115_00001224744871391589_0,
  016_00010474519017225707_016_00005354595956047504_017_00014627739934060582_116_00004701750951825417_116_00016017196572338768_116_00003338886116348349_015_00000816496580927726_0,
  016_00010474519017225707_016_00004680587099991834_116_00012538052441446166_016_00012853662242996937_115_00001570298294868939_116_00003338886116348349_015_00000816496580927726_1,
  015_00000997455868094921_017_00040065782439365477_116_00008187198011492087_016_00020578044048718778_116_00015388769325040015_116_00003338886116348349_115_00001224744871391589_0,
  016_00010474519017225707_016_00004680587099991834_116_00004115244506535067_017_00007153479768626296_115_00001491744888956595_116_00003338886116348349_015_00000816496580927726_0,
  016_00009474598344672714_017_00040065782439365477_017_00019090154734013484_117_00033976345430671806_116_00014603235265916574_116_00003338886116348349_015_00000816496580927726_0,
  015_00000997455868094921_016_00004680587099991834_016_00034484643513057516_115_00002225716414664777_114_00000142890216422672_116_00003338886116348349_115_00001224744871391589_0,
  016_00009474598344672714_016_00004680587099991834_116_00009414362081479135_015_00001034574607230803_116_00013817701206793134_116_00003338886116348349_015_00000816496580927726_0,
  016_00009474598344672714_017_00040065782439365477_117_00042825850615333005_116_00001190668312860946_116_00013503487583143758_116_00003338886116348349_015_00000816496580927726_0,
  015_00000997455868094921_017_00040065782439365477_116_00003334321916543309_017_00005147146832075141_116_00013189273959494383_116_00003338886116348349_115_00001224744871391589_0,
  016_00009474598344672714_016_00004680587099991834_016_00009941362113316569_114_00000132286659321677_116_00012717953524020318_116_00003338886116348349_015_00000816496580927726_0,
  016_00009474598344672714_017_00040065782439365477_116_00015550182431414372_016_00025995142977406824_116_00012403739900370943_116_00003338886116348349_115_00001224744871391589_0,
  016_00009474598344672714_017_00040065782439365477_116_00004003684136536244_117_00006890850787231645_116_00011932419464896877_116_00003338886116348349_015_00000816496580927726_0,
  015_00000997455868094921_017_00040065782439365477_118_00021063155657627917_117_00013913016065160544_116_00011618205841247502_116_00003338886116348349_115_00001224744871391589_0,
  015_00000997455868094921_016_00004680587099991834_016_00006594551013351894_115_00000811251694396233_115_00001114688540577344_116_00003338886116348349_015_00000816496580927726_0,
  015_00000997455868094921_016_00004680587099991834_016_00008881538598327754_116_00011924549523409467_116_00010832671782124061_116_00003338886116348349_015_00000816496580927726_0,
  016_00010474519017225707_016_00004680587099991834_116_00010027944116472658_016_00009342579604032467_116_00010518458158474686_116_00003338886116348349_015_00000816496580927726_1,
  016_00010474519017225707_016_00005354595956047504_016_00003191959728387807_117_00028960513089293993_115_00001020424453482531_116_00003338886116348349_015_00000816496580927726_0,
  016_00010974479353501918_016_00005354595956047504_116_00008689219676486789_016_00006934980080171117_116_00009890030911175934_116_00003338886116348349_015_00000816496580927726_0,
  016_00010974479353501918_016_00005354595956047504_016_00037050532023030436_116_00023460963908578445_116_00009575817287526558_116_00003338886116348349_015_00000816496580927726_0,
  016_00010974479353501918_016_00005354595956047504_116_00007294715051501508_016_00006834663433343559_116_00009261603663877183_116_00003338886116348349_115_00001224744871391589_0,
  016_00010974479353501918_016_00005354595956047504_016_00007487033973342473_116_00007109350475686768_116_00008790283228403118_116_00003338886116348349_015_00000816496580927726_0,
  016_00010974479353501918_016_00005354595956047504_116_00011087767631461474_016_00007837829901619122_116_00008476069604753742_116_00003338886116348349_015_00000816496580927726_0,
  016_00010974479353501918_015_00000602860481210279_116_00004840386911527413_017_00023204143261035248_116_00008161855981104366_116_00003338886116348349_015_00000816496580927726_0,
  016_00010974479353501918_015_00000602860481210279_114_00000132074146614391_016_00013455562123962277_115_00000784764235745499_116_00003338886116348349_115_00001224744871391589_0,
  016_00010974479353501918_015_00000602860481210279_117_00009357739615686254_117_00040998510708600777_116_00007376321921980926_016_00029950108064592316_115_00001224744871391589_0,
  016_00010974479353501918_016_00005354595956047504_115_00000562130950151917_017_00014175645046555194_116_00006590787862857486_116_00003338886116348349_015_00000816496580927726_0,
  016_00010974479353501918_015_00000602860481210279_016_00003638201208383097_017_00005147146832075141_115_00000627657423920811_116_00003338886116348349_015_00000816496580927726_0,
  016_00010974479353501918_015_00000670261366815846_015_00001635608338824886_116_00016840065217959728_116_00005962360615558734_116_00003338886116348349_015_00000816496580927726_0,
  016_00011474439689778415_015_00000670261366815846_117_00009915541465680366_116_00005203334185963199_116_00005648146991909357_116_00003338886116348349_115_00001224744871391589_0,
  016_00011474439689778415_015_00000670261366815846_116_00005175068021523881_117_00023944680747916175_116_00005176826556435293_116_00003338886116348349_015_00000816496580927726_0,
  016_00011974400026054626_015_00000737662252421413_016_00020428036893205883_116_00019147348094993524_117_00048626129327859174_116_00003338886116348349_015_00000816496580927726_0,
  016_00011974400026054626_015_00000670261366815846_116_00003557442656540954_015_00000793814654844668_117_00045483993091365416_116_00003338886116348349_015_00000816496580927726_0,
  016_00011974400026054626_015_00000670261366815846_117_00042825850615333005_016_00008540046429412019_117_00042341856854871657_116_00003338886116348349_015_00000816496580927726_0,
  016_00011974400026054626_015_00000602860481210279_116_00005788650056517404_017_00023204143261035248_115_00000391997206183779_116_00003338886116348349_115_00001224744871391589_0,
  016_00011974400026054626_015_00000602860481210279_117_00038921237665374214_117_00003881351382404913_117_00034486516263637257_116_00003338886116348349_015_00000816496580927726_0,
  016_00012974320698607618_015_00000737662252421413_117_00010473343315674478_016_00003022630853896422_115_00000313443800271435_116_00003338886116348349_115_00001224744871391589_0,
  016_00012974320698607618_015_00000670261366815846_118_00009907118657745668_117_00045011176581703016_117_00026631175672402857_116_00003338886116348349_015_00000816496580927726_0,
  016_00012974320698607618_015_00000670261366815846_116_00009470142266478546_016_00020076460814580996_117_00023489039435909095_116_00003338886116348349_015_00000816496580927726_1,
  016_00012974320698607618_015_00000670261366815846_117_00018282569215592054_117_00027957346621018414_117_00020346903199415334_116_00003338886116348349_015_00000816496580927726_0,
  016_00012474360362331123_015_00000602860481210279_116_00011645569481455584_016_00016966644762926748_117_00017204766962921575_116_00003338886116348349_015_00000816496580927726_1,
  016_00012974320698607618_015_00000670261366815846_016_00006761891568350127_116_00001993201487481394_117_00014062630726427813_116_00003338886116348349_015_00000816496580927726_0,
  016_00012474360362331123_015_00000602860481210279_116_00010195284671470892_015_00001556221170734096_117_00010920494489934053_016_00029950108064592316_115_00001224744871391589_1,
  016_00012974320698607618_015_00000670261366815846_115_00000562130950151917_016_00011047962600100927_117_00003065153898699653_016_00029950108064592316_115_00001224744871391589_0,
  016_00012974320698607618_015_00000670261366815846_116_00011701349666454997_016_00008640363076239577_017_00004790186692534748_116_00003338886116348349_115_00001224744871391589_1,
  016_00012974320698607618_015_00000670261366815846_116_00014211457991428502_014_00000281017925607855_017_00009503391047275388_116_00003338886116348349_015_00000816496580927726_1,
  016_00012474360362331123_015_00000670261366815846_116_00008466098936489144_016_00012151445715204048_017_00012645527283769148_116_00003338886116348349_115_00001224744871391589_0,
  016_00012974320698607618_015_00000670261366815846_017_00029130588033907506_116_00006106184007411204_016_00001735873163850979_116_00003338886116348349_115_00001224744871391589_0,
  016_00012974320698607618_015_00000670261366815846_017_00028014984333919285_117_00009900350192058306_016_00002207193599325043_116_00003338886116348349_115_00001224744871391589_0,
  016_00013474281034883828_015_00000737662252421413_116_00013486315586436157_015_00002077867734237389_016_00002678514034799107_116_00003338886116348349_115_00001224744871391589_1,
  016_00013474281034883828_016_00008050631380269416_018_00034717029341783334_117_00049023842454805255_016_00003149834470273171_116_00003338886116348349_015_00000816496580927726_0,
  016_00013474281034883828_015_00000737662252421413_116_00006736913201507395_016_00003423897441206646_016_00003464048093922547_016_00029950108064592316_115_00001224744871391589_0,
  016_00013474281034883828_015_00000737662252421413_016_00010666504518308915_116_00011924549523409467_016_00004249582153045987_116_00003338886116348349_015_00000816496580927726_0,
  016_00012974320698607618_015_00000670261366815846_016_00025782934653149363_116_00019347981388648636_016_00004563795776695363_116_00003338886116348349_015_00000816496580927726_0,
  016_00012974320698607618_015_00000670261366815846_016_00004530684168373677_117_00037989011303774045_017_00048780094003447394_116_00003338886116348349_015_00000816496580927726_0,
  016_00012974320698607618_015_00000670261366815846_018_00017982973841959956_118_00028781849141293357_016_00005192223023994115_116_00003338886116348349_115_00001224744871391589_0,
  016_00012974320698607618_015_00000670261366815846_116_00006402232091510928_116_00001993201487481394_016_00005663543459468179_116_00003338886116348349_015_00000816496580927726_0,
  016_00013474281034883828_015_00000737662252421413_116_00005509749131520348_117_00004884517850680491_016_00005977757083117555_116_00003338886116348349_015_00000816496580927726_0,
  016_00012974320698607618_015_00000670261366815846_117_00010473343315674478_017_00028219975602413067_016_00006291970706766932_116_00003338886116348349_015_00000816496580927726_0,
  016_00013474281034883828_015_00000670261366815846_015_00000865841785833011_115_00001021916652734101_016_00006606184330416307_116_00003338886116348349_015_00000816496580927726_0,
  016_00012974320698607618_015_00000670261366815846_016_00003972882318379565_117_00007894017255507152_016_00006920397954065683_116_00003338886116348349_015_00000816496580927726_0,
  016_00012974320698607618_015_00000602860481210279_116_00011589789296456174_015_00001205112906837649_015_00000723461157771506_116_00003338886116348349_015_00000816496580927726_1,
  016_00012974320698607618_016_00005354595956047504_117_00038363435815380104_017_00012169312110004112_016_00007548825201364435_116_00003338886116348349_015_00000816496580927726_0,
  016_00012474360362331123_016_00005354595956047504_017_00021321362133989932_117_00030966846025845146_016_00007863038825013812_116_00003338886116348349_015_00000816496580927726_0,
  016_00012974320698607618_016_00005354595956047504_117_00029438606215474306_117_00035982678367222964_016_00008177252448663187_116_00003338886116348349_015_00000816496580927726_0,
  016_00011974400026054626_017_00040065782439365477_116_00005230848206523292_017_00003140813895523986_016_00008491466072312563_116_00003338886116348349_015_00000816496580927726_0,
  016_00011974400026054626_017_00033325693878808776_116_00002162938031555673_117_00032973178962396227_015_00000880567969596194_116_00003338886116348349_115_00001224744871391589_0,
  016_00010974479353501918_016_00002658560531825208_116_00004617266171529768_016_00007536879961136456_016_00009277000131436004_116_00003338886116348349_115_00001224744871391589_0,
  016_00010974479353501918_016_00002658560531825208_015_00001139164692330126_116_00011924549523409467_016_00009748320566910068_116_00003338886116348349_015_00000816496580927726_0,
  015_00000997455868094921_016_00000636533963658965_116_00007238934866502097_016_00010446062719135587_016_00010062534190559445_116_00003338886116348349_015_00000816496580927726_0,
  015_00000997455868094921_016_00000636533963658965_116_00009916383746473837_016_00005430230377757772_015_00001037674781420882_116_00003338886116348349_015_00000816496580927726_1,
  016_00010474519017225707_016_00000636533963658965_016_00011949448773295372_115_00001112201634878902_016_00010690961437858195_116_00003338886116348349_015_00000816496580927726_0,
  015_00000997455868094921_118_00003747489239670474_015_00001635608338824886_116_00017141015158442399_016_00011005175061507573_116_00003338886116348349_015_00000816496580927726_0,
  016_00009474598344672714_117_00007114837484523745_115_00000919124134148149_016_00008540046429412019_016_00011319388685156948_116_00003338886116348349_015_00000816496580927726_1,
  016_00008974638008396503_117_00007114837484523745_115_00001142244874145794_015_00002107962728285656_016_00011633602308806323_116_00003338886116348349_115_00001224744871391589_1,
  016_00008974638008396503_118_00003747489239670474_117_00025533993265515514_017_00003140813895523986_016_00012104922744280389_116_00003338886116348349_015_00000816496580927726_0,
  016_00008474677672120007_117_00007114837484523745_116_00012370711886447932_016_00009041629663549801_016_00012419136367929764_116_00003338886116348349_015_00000816496580927726_1,
  016_00008474677672120007_117_00007114837484523745_116_00005844430241516816_015_00000793814654844668_015_00001273334999157914_116_00003338886116348349_115_00001224744871391589_0,
  016_00008474677672120007_117_00007114837484523745_117_00045614859865303564_117_00007894017255507152_016_00013204670427053204_116_00003338886116348349_115_00001224744871391589_0,
  016_00008474677672120007_118_00003747489239670474_116_00008242978196491499_016_00010646696012790704_016_00013675990862527267_116_00003338886116348349_115_00001224744871391589_0,
  016_00008974638008396503_118_00003747489239670474_015_00001351129395327889_116_00016137848690166836_016_00014147311298001333_116_00003338886116348349_115_00001224744871391589_0,
  016_00008974638008396503_118_00003747489239670474_016_00005757848238360724_116_00007410300416169433_016_00014618631733475396_116_00003338886116348349_015_00000816496580927726_0,
  016_00008974638008396503_118_00003747489239670474_015_00002751212038813111_116_00021053364384717095_016_00014932845357124773_116_00003338886116348349_015_00000816496580927726_0,
  016_00008974638008396503_016_00000636533963658965_015_00004647738328793094_115_00002616951337292247_016_00015247058980774149_116_00003338886116348349_115_00001224744871391589_1,
  016_00008974638008396503_118_00003747489239670474_116_00008131417826492676_015_00000492864714361999_016_00015718379416248212_116_00003338886116348349_015_00000816496580927726_0,
  016_00008474677672120007_016_00000636533963658965_015_00001139164692330126_115_00001272708269802992_015_00001603259303989759_116_00003338886116348349_115_00001224744871391589_0,
  016_00008974638008396503_017_00013105428197142516_117_00045614859865303564_017_00004143980363799563_016_00016503913475371652_116_00003338886116348349_015_00000816496580927726_0,
  016_00008974638008396503_017_00013105428197142516_015_00007174580709266423_115_00003429516176595453_016_00016818127099021027_116_00003338886116348349_015_00000816496580927726_1,
  016_00008974638008396503_017_00013105428197142516_016_00003917102133380153_116_00005805234066928531_016_00017132340722670405_116_00003338886116348349_115_00001224744871391589_0,
  016_00008974638008396503_017_00013105428197142516_116_00005677089686518582_017_00023204143261035248_116_00016959837443286896_116_00003338886116348349_115_00001224744871391589_0,
  016_00008474677672120007_016_00000636533963658965_116_00007629396161497976_015_00001014511277865292_115_00001648851700781283_116_00003338886116348349_015_00000816496580927726_0]

/-- lr/data.csv 4302-4401 -/
def dataCsv43 : List ℕ := [
  016_00008474677672120007_016_00000636533963658965_016_00005869408608359546_116_00005403967479618307_116_00016174303384163455_116_00003338886116348349_115_00001224744871391589_0,
  016_00008474677672120007_017_00013105428197142516_117_00037805633965385993_016_00011148279246928485_115_00001570298294868939_116_00003338886116348349_015_00000816496580927726_0,
  016_00008474677672120007_016_00000636533963658965_015_00006449438304274077_116_00027473629781680695_116_00015388769325040015_116_00003338886116348349_015_00000816496580927726_0,
  016_00008474677672120007_017_00013105428197142516_116_00005788650056517404_016_00008138779842101795_115_00001507455570139064_116_00003338886116348349_015_00000816496580927726_0,
  016_00007974717335843795_016_00000636533963658965_015_00000865841785833011_116_00013730249166305482_116_00014760342077741262_116_00003338886116348349_015_00000816496580927726_0,
  016_00007974717335843795_016_00000636533963658965_016_00008267956563334231_116_00013429299225822813_116_00014446128454091887_116_00003338886116348349_015_00000816496580927726_0,
  016_00007974717335843795_118_00003747489239670474_016_00018419950233227078_116_00017141015158442399_116_00014131914830442511_116_00003338886116348349_015_00000816496580927726_0,
  016_00006974796663290803_117_00007114837484523745_116_00015605962616413784_015_00002398881004085569_116_00013817701206793134_116_00003338886116348349_015_00000816496580927726_1,
  016_00006974796663290803_117_00007114837484523745_117_00043941454315321227_015_00000723593002065379_116_00013503487583143758_016_00029950108064592316_115_00001224744871391589_0,
  016_00006474836327014591_117_00007114837484523745_117_00021071578465562615_117_00004884517850680491_116_00012717953524020318_116_00003338886116348349_115_00001224744871391589_0,
  016_00006974796663290803_118_00003747489239670474_016_00013232393028281833_116_00014432465694098375_116_00012246633088546255_116_00003338886116348349_015_00000816496580927726_0,
  016_00007474756999567299_016_00000636533963658965_116_00003947903951536833_017_00008156646236901802_116_00011932419464896877_116_00003338886116348349_115_00001224744871391589_0,
  016_00007474756999567299_016_00000636533963658965_115_00000606755098151446_016_00006533713492860893_116_00011461099029422814_116_00003338886116348349_015_00000816496580927726_0,
  016_00006974796663290803_016_00000636533963658965_117_00020513776615568505_015_00000663403013968845_115_00001114688540577344_116_00003338886116348349_015_00000816496580927726_0,
  016_00006974796663290803_016_00000636533963658965_016_00004698024723371911_116_00007711250356652106_116_00010832671782124061_016_00029950108064592316_115_00001224744871391589_0,
  016_00006974796663290803_118_00003747489239670474_016_00006259869903355426_115_00001021916652734101_116_00010047137723000623_116_00003338886116348349_115_00001224744871391589_0,
  016_00007474756999567299_016_00000636533963658965_016_00005590507683362491_116_00006607767241548985_116_00009575817287526558_116_00003338886116348349_015_00000816496580927726_0,
  016_00007474756999567299_118_00003747489239670474_116_00006792693386506806_016_00004627697203137324_116_00009261603663877183_116_00003338886116348349_115_00001224744871391589_0,
  016_00007474756999567299_016_00000636533963658965_018_00012404955342018832_016_00002220097679275974_116_00008790283228403118_116_00003338886116348349_015_00000816496580927726_0,
  016_00007974717335843795_017_00013105428197142516_116_00007127374496503274_016_00005129280437275106_116_00008476069604753742_116_00003338886116348349_115_00001224744871391589_0,
  016_00008474677672120007_017_00019845516757699214_116_00007908297086495032_016_00004627697203137324_116_00008004749169279678_116_00003338886116348349_015_00000816496580927726_0,
  016_00008474677672120007_017_00013105428197142516_016_00008212176378334819_115_00001112201634878902_116_00007690535545630302_116_00003338886116348349_015_00000816496580927726_0,
  016_00008474677672120007_016_00000636533963658965_116_00006011770796515049_016_00004025797322171985_116_00007376321921980926_116_00003338886116348349_115_00001224744871391589_0,
  016_00008974638008396503_017_00019845516757699214_116_00011031987446462062_016_00010546379365963146_116_00006905001486506862_116_00003338886116348349_015_00000816496580927726_1,
  016_00008474677672120007_017_00013105428197142516_117_00029438606215474306_016_00003022630853896422_116_00006590787862857486_116_00003338886116348349_015_00000816496580927726_0,
  016_00007974717335843795_017_00013105428197142516_116_00008633439491487378_016_00017167278056581863_115_00000627657423920811_116_00003338886116348349_015_00000816496580927726_0,
  016_00007974717335843795_016_00000636533963658965_116_00009860603561474425_016_00015863161647823627_116_00005962360615558734_116_00003338886116348349_015_00000816496580927726_1,
  016_00008474677672120007_016_00000636533963658965_016_00006761891568350127_116_00010720749761478792_116_00005648146991909357_016_00029950108064592316_115_00001224744871391589_0,
  016_00007974717335843795_016_00000636533963658965_115_00001186869022145323_016_00008239096488929353_117_00048626129327859174_116_00003338886116348349_015_00000816496580927726_1,
  016_00007974717335843795_118_00003747489239670474_017_00015185541784054696_116_00009717583293203229_117_00045483993091365416_116_00003338886116348349_015_00000816496580927726_0,
  016_00007474756999567299_116_00001385492604507661_017_00005702910334154783_117_00014916182533436123_117_00042341856854871657_116_00003338886116348349_015_00000816496580927726_0,
  016_00007974717335843795_117_00007114837484523745_016_00011558987478299494_116_00008915050118582778_115_00000391997206183779_116_00003338886116348349_115_00001224744871391589_0,
  016_00008474677672120007_117_00007114837484523745_116_00004840386911527413_017_00015178811514830773_117_00034486516263637257_116_00003338886116348349_115_00001224744871391589_0,
  016_00007974717335843795_116_00001385492604507661_016_00002745718248392517_116_00006106184007411204_117_00029773311908896616_116_00003338886116348349_015_00000816496580927726_0,
  016_00007974717335843795_116_00001385492604507661_117_00037247832115391877_015_00000252104761975864_117_00026631175672402857_116_00003338886116348349_015_00000816496580927726_0,
  016_00008474677672120007_117_00007114837484523745_016_00003805541763381331_117_00022941514279640599_117_00023489039435909095_116_00003338886116348349_015_00000816496580927726_0,
  016_00007974717335843795_117_00007114837484523745_116_00006458012276510339_016_00013656195417617392_117_00020346903199415334_016_00029950108064592316_115_00001224744871391589_0,
  016_00007974717335843795_117_00007114837484523745_116_00005509749131520348_016_00003423897441206646_117_00012491562608180934_116_00003338886116348349_015_00000816496580927726_0,
  016_00007974717335843795_117_00007114837484523745_116_00007908297086495032_016_00003724847381689319_117_00009349426371687174_116_00003338886116348349_015_00000816496580927726_0,
  016_00008474677672120007_117_00007114837484523745_117_00008242135915698029_015_00000663403013968845_118_00062072901351934134_116_00003338886116348349_015_00000816496580927726_0,
  016_00008474677672120007_117_00007114837484523745_118_00032219192657510165_016_00000915981270517738_117_00003065153898699653_116_00003338886116348349_115_00001224744871391589_0,
  016_00008474677672120007_116_00001385492604507661_115_00000785251690149562_016_00006032130258723112_018_00016480504560409875_116_00003338886116348349_015_00000816496580927726_0,
  016_00008474677672120007_116_00001385492604507661_116_00014211457991428502_016_00028302425854440614_017_00004790186692534748_116_00003338886116348349_115_00001224744871391589_1,
  016_00008474677672120007_116_00001385492604507661_116_00002664959696550374_117_00006890850787231645_017_00009503391047275388_116_00003338886116348349_015_00000816496580927726_0,
  016_00008974638008396503_117_00007114837484523745_116_00006736913201507395_016_00011348912540583593_017_00012645527283769148_016_00029950108064592316_115_00001224744871391589_0,
  016_00008974638008396503_116_00001385492604507661_018_00040295047841724455_118_00018750184458538297_016_00002050086787500355_116_00003338886116348349_115_00001224744871391589_0,
  016_00008974638008396503_117_00020595014605633308_015_00000330352009838663_116_00009617266646375675_016_00002521407222974419_116_00003338886116348349_015_00000816496580927726_0,
  016_00009474598344672714_116_00001385492604507661_016_00010331823408312446_116_00012526449404374806_016_00002835620846623795_016_00029950108064592316_115_00001224744871391589_0,
  016_00009474598344672714_116_00001385492604507661_116_00001772476736559794_016_00004728013849964882_017_00036211549057472353_116_00003338886116348349_015_00000816496580927726_0,
  016_00009474598344672714_117_00020595014605633308_016_00003136179543388396_116_00008614100178100111_016_00003935368529396611_116_00003338886116348349_015_00000816496580927726_0,
  016_00009474598344672714_117_00020595014605633308_016_00001630114548404292_117_00024947847216191754_016_00004249582153045987_116_00003338886116348349_115_00001224744871391589_0,
  016_00008974638008396503_117_00027335103166186175_116_00005955990611515638_016_00003724847381689319_016_00004720902588520051_116_00003338886116348349_015_00000816496580927726_0,
  016_00009474598344672714_117_00020595014605633308_116_00006402232091510928_017_00028219975602413067_016_00005035116212169427_116_00003338886116348349_015_00000816496580927726_0,
  015_00000997455868094921_117_00020595014605633308_116_00008521879121488555_015_00002278501027892502_016_00005349329835818804_116_00003338886116348349_115_00001224744871391589_1,
  015_00000997455868094921_116_00001385492604507661_116_00004617266171529768_016_00018170444524857428_016_00005820650271292868_116_00003338886116348349_015_00000816496580927726_0,
  015_00000997455868094921_116_00001385492604507661_116_00014434578731426149_015_00001736791135023697_016_00006134863894942243_016_00029950108064592316_115_00001224744871391589_1,
  015_00000997455868094921_116_00001385492604507661_016_00006148309533356603_116_00009015366765410335_016_00006920397954065683_116_00003338886116348349_015_00000816496580927726_0,
  015_00000997455868094921_117_00007114837484523745_116_00007350495236500919_016_00012853662242996937_015_00000723461157771506_116_00003338886116348349_015_00000816496580927726_0,
  015_00000997455868094921_117_00007114837484523745_017_00037497615783819194_116_00005504284126445864_016_00007548825201364435_016_00029950108064592316_115_00001224744871391589_0,
  016_00010474519017225707_118_00003747489239670474_117_00004337522965739242_116_00001993201487481394_016_00008334359260487876_116_00003338886116348349_115_00001224744871391589_0,
  016_00010474519017225707_016_00000636533963658965_018_00023560992341901083_117_00042001677176876356_015_00000880567969596194_116_00003338886116348349_015_00000816496580927726_0,
  016_00010474519017225707_016_00000636533963658965_116_00008912340416484434_016_00008239096488929353_016_00009119893319611315_116_00003338886116348349_115_00001224744871391589_1,
  016_00010474519017225707_016_00000636533963658965_116_00005119287836524469_015_00000663403013968845_016_00009591213755085379_116_00003338886116348349_015_00000816496580927726_0,
  016_00010474519017225707_016_00000636533963658965_016_00017025445608241796_116_00015435632162373938_016_00009905427378734756_016_00029950108064592316_115_00001224744871391589_0,
  016_00010474519017225707_016_00000636533963658965_017_00042517832433766206_116_00010118849880513456_016_00010690961437858195_016_00029950108064592316_115_00001224744871391589_0,
  015_00000997455868094921_118_00003747489239670474_116_00005007727466525647_016_00008840996369894685_016_00011476495496981636_116_00003338886116348349_015_00000816496580927726_0,
  015_00000997455868094921_117_00007114837484523745_116_00008410318751489733_016_00011449229187411152_015_00001179070912063101_116_00003338886116348349_015_00000816496580927726_0,
  015_00000997455868094921_117_00007114837484523745_116_00005119287836524469_017_00028219975602413067_016_00012104922744280389_016_00029950108064592316_115_00001224744871391589_0,
  015_00000997455868094921_118_00003747489239670474_016_00006985012308347772_116_00011422966289271685_016_00012890456803403827_116_00003338886116348349_015_00000816496580927726_0,
  015_00000997455868094921_117_00007114837484523745_015_00001094540544330597_116_00012827399344857475_016_00013204670427053204_016_00029950108064592316_115_00001224744871391589_0,
  015_00000997455868094921_117_00007114837484523745_116_00012872733551442632_016_00017668861290719644_016_00013990204486176645_116_00003338886116348349_015_00000816496580927726_1,
  015_00000997455868094921_116_00001385492604507661_116_00003278541731543898_019_00013131449069732513_015_00001430441810982602_116_00003338886116348349_015_00000816496580927726_0,
  016_00009474598344672714_117_00027335103166186175_115_00000556552931651976_017_00017185144451381926_016_00014618631733475396_116_00003338886116348349_115_00001224744871391589_0,
  016_00009474598344672714_117_00020595014605633308_118_00032219192657510165_117_00040998510708600777_015_00001508995216894946_116_00003338886116348349_115_00001224744871391589_0,
  015_00000997455868094921_117_00020595014605633308_017_00006818514034143008_116_00005203334185963199_016_00015561272604423524_116_00003338886116348349_015_00000816496580927726_0,
  015_00000997455868094921_117_00020595014605633308_115_00000696003394150504_116_00003698584483549854_014_00000158754862280729_116_00003338886116348349_015_00000816496580927726_0,
  016_00009474598344672714_117_00027335103166186175_017_00006818514034143008_116_00005403967479618307_016_00016189699851722277_116_00003338886116348349_115_00001224744871391589_0,
  016_00008974638008396503_117_00027335103166186175_116_00005732869871517993_016_00009041629663549801_015_00001666102028719634_116_00003338886116348349_115_00001224744871391589_0,
  016_00009474598344672714_117_00027335103166186175_116_00008577659306487967_016_00005831496965067996_016_00017132340722670405_116_00003338886116348349_115_00001224744871391589_0,
  016_00008974638008396503_116_00003407519172674287_016_00010778064888307737_115_00000991821658685834_016_00017603661158144468_116_00003338886116348349_115_00001224744871391589_0,
  016_00009474598344672714_117_00027335103166186175_116_00007183154681502685_016_00009041629663549801_016_00018074981593618533_116_00003338886116348349_015_00000816496580927726_0,
  016_00009474598344672714_117_00027335103166186175_116_00005175068021523881_016_00003223264147551537_016_00018389195217267909_116_00003338886116348349_015_00000816496580927726_0,
  016_00008974638008396503_116_00003407519172674287_117_00007684334065703917_117_00003881351382404913_016_00018703408840917284_116_00003338886116348349_015_00000816496580927726_0,
  016_00008474677672120007_116_00003407519172674287_116_00013430535401436745_015_00002559387639009659_016_00019017622464566661_116_00003338886116348349_015_00000816496580927726_1,
  016_00008974638008396503_117_00027335103166186175_116_00005342408576522114_016_00002721680913413756_016_00019331836088216037_116_00003338886116348349_015_00000816496580927726_0,
  016_00008974638008396503_117_00020595014605633308_116_00005398188761521525_016_00005329913730930215_016_00019646049711865412_116_00003338886116348349_015_00000816496580927726_1,
  016_00009474598344672714_117_00020595014605633308_015_00001005292248331539_115_00000811251694396233_116_00016959837443286896_116_00003338886116348349_015_00000816496580927726_0,
  015_00000997455868094921_116_00001385492604507661_117_00003779721115745129_117_00005887684318956068_116_00016645623819637518_116_00003338886116348349_015_00000816496580927726_0,
  015_00000997455868094921_116_00001385492604507661_016_00009048879153325988_116_00012827399344857475_116_00016331410195988143_116_00003338886116348349_015_00000816496580927726_0,
  016_00010474519017225707_118_00003747489239670474_116_00010251064856470304_016_00005129280437275106_116_00016017196572338768_116_00003338886116348349_115_00001224744871391589_1,
  016_00010974479353501918_016_00000636533963658965_116_00006569572646509162_016_00005430230377757772_116_00015545876136864702_116_00003338886116348349_115_00001224744871391589_0,
  016_00010974479353501918_016_00000636533963658965_116_00009525922451477957_016_00011649862481066267_115_00001507455570139064_116_00003338886116348349_115_00001224744871391589_1,
  016_00010974479353501918_016_00000636533963658965_117_00045057058015309454_016_00005129280437275106_116_00014603235265916574_116_00003338886116348349_015_00000816496580927726_0,
  016_00010974479353501918_016_00000636533963658965_016_00001853235288401937_116_00005403967479618307_114_00000142890216422672_116_00003338886116348349_115_00001224744871391589_0,
  016_00010974479353501918_118_00003747489239670474_117_00031112011765456643_016_00008740679723067134_116_00013817701206793134_116_00003338886116348349_015_00000816496580927726_0,
  016_00011474439689778415_016_00000636533963658965_117_00014377956265633265_017_00004143980363799563_116_00013503487583143758_116_00003338886116348349_015_00000816496580927726_0,
  016_00011474439689778415_016_00000636533963658965_116_00008689219676486789_016_00002922314207068864_116_00013189273959494383_016_00029950108064592316_115_00001224744871391589_0,
  016_00011974400026054626_017_00013105428197142516_019_00012489183421365824_117_00022941514279640599_116_00012403739900370943_116_00003338886116348349_015_00000816496580927726_0,
  016_00011474439689778415_016_00000636533963658965_017_00013512136234072358_117_00021938347811365091_116_00012089526276721567_116_00003338886116348349_115_00001224744871391589_0,
  016_00011474439689778415_016_00000636533963658965_016_00006371430273354248_116_00010319483174168569_116_00011618205841247502_116_00003338886116348349_015_00000816496580927726_0]

/-- lr/data.csv 4402-4501 -/
def dataCsv44 : List ℕ := [
  016_00011474439689778415_016_00000636533963658965_116_00010362625226469127_016_00010947645953273368_116_00011303992217598127_116_00003338886116348349_015_00000816496580927726_1,
  016_00010974479353501918_118_00003747489239670474_116_00003947903951536833_016_00003624530734861761_116_00010989778593948751_016_00029950108064592316_115_00001224744871391589_0,
  016_00011474439689778415_017_00013105428197142516_117_00018282569215592054_116_00006206500654238761_115_00001020424453482531_016_00029950108064592316_115_00001224744871391589_0,
  016_00011474439689778415_016_00000636533963658965_116_00008410318751489733_016_00009944479484997806_115_00000941871047570187_116_00003338886116348349_015_00000816496580927726_0,
  016_00011974400026054626_017_00013105428197142516_117_00029996408065468416_016_00005931813611895553_116_00009104496852052494_116_00003338886116348349_115_00001224744871391589_0,
  016_00011974400026054626_017_00013105428197142516_116_00011589789296456174_016_00005530547024585329_115_00000863317641657843_116_00003338886116348349_015_00000816496580927726_1,
  016_00012474360362331123_017_00019845516757699214_115_00001186869022145323_015_00001857171111216765_116_00008318962792929054_116_00003338886116348349_015_00000816496580927726_1,
  016_00011474439689778415_017_00013105428197142516_116_00008075637641493265_016_00015461895060513404_116_00008004749169279678_116_00003338886116348349_015_00000816496580927726_0,
  016_00011974400026054626_016_00000636533963658965_015_00002622917613314465_115_00002115368103154465_116_00007690535545630302_116_00003338886116348349_015_00000816496580927726_0,
  016_00011974400026054626_016_00000636533963658965_115_00001008372430147207_016_00014659361885892956_116_00007376321921980926_116_00003338886116348349_115_00001224744871391589_1,
  016_00012474360362331123_017_00013105428197142516_016_00002634157878393695_116_00007811567003479657_116_00006905001486506862_116_00003338886116348349_015_00000816496580927726_0,
  016_00012474360362331123_017_00019845516757699214_016_00008323736748333642_116_00008413466884444997_116_00006590787862857486_116_00003338886116348349_015_00000816496580927726_0,
  016_00012974320698607618_017_00033325693878808776_117_00049519472815262355_016_00003223264147551537_115_00000627657423920811_116_00003338886116348349_015_00000816496580927726_0,
  016_00013474281034883828_017_00033325693878808776_115_00000785251690149562_016_00007336246667481341_116_00005962360615558734_116_00003338886116348349_115_00001224744871391589_0,
  016_00013474281034883828_017_00033325693878808776_117_00010473343315674478_117_00006890850787231645_115_00000549104018008467_116_00003338886116348349_015_00000816496580927726_0,
  016_00012974320698607618_016_00002658560531825208_117_00013820154415639155_016_00002721680913413756_116_00005176826556435293_116_00003338886116348349_015_00000816496580927726_0,
  016_00012974320698607618_016_00002658560531825208_117_00003779721115745129_117_00038992177772049624_117_00048626129327859174_116_00003338886116348349_115_00001224744871391589_0,
  016_00012974320698607618_016_00002658560531825208_116_00009693263006476192_015_00002689799279885482_116_00004391292497311854_116_00003338886116348349_015_00000816496580927726_1,
  016_00012974320698607618_017_00019845516757699214_016_00005757848238360724_116_00006808400535204094_117_00040770788736624775_116_00003338886116348349_015_00000816496580927726_0,
  016_00012974320698607618_017_00013105428197142516_015_00006343455952775195_115_00002927932942457671_117_00037628652500131016_116_00003338886116348349_115_00001224744871391589_1,
  016_00012974320698607618_017_00013105428197142516_016_00018643070973224722_116_00018746081507683297_117_00032915448145390375_016_00029950108064592316_115_00001224744871391589_0,
  016_00012974320698607618_017_00013105428197142516_115_00001192447040645264_016_00022484060338442347_117_00025060107554155975_116_00003338886116348349_015_00000816496580927726_1,
  016_00012974320698607618_017_00013105428197142516_016_00034484643513057516_116_00022859064027613107_117_00021917971317662216_116_00003338886116348349_115_00001224744871391589_0,
  016_00012974320698607618_017_00013105428197142516_017_00013512136234072358_117_00009900350192058306_117_00017204766962921575_116_00003338886116348349_115_00001224744871391589_0,
  016_00012974320698607618_017_00013105428197142516_014_00000051442662033672_116_00009015366765410335_117_00012491562608180934_116_00003338886116348349_115_00001224744871391589_0,
  016_00012474360362331123_017_00013105428197142516_017_00004587306634166558_117_00030966846025845146_117_00007778358253440293_116_00003338886116348349_015_00000816496580927726_0,
  016_00012974320698607618_017_00019845516757699214_116_00003334321916543309_017_00004143980363799563_118_00046362220169465326_116_00003338886116348349_015_00000816496580927726_0,
  016_00011974400026054626_016_00000636533963658965_116_00008912340416484434_016_00008941313016722243_118_00014940857804527726_116_00003338886116348349_115_00001224744871391589_1,
  016_00011974400026054626_016_00000636533963658965_016_00020483817078205293_116_00018846398154510855_017_00003219118574287868_116_00003338886116348349_015_00000816496580927726_0,
  016_00011474439689778415_016_00000636533963658965_016_00010722284703308325_116_00006607767241548985_017_00006361254810781627_116_00003338886116348349_115_00001224744871391589_0,
  016_00011474439689778415_016_00000636533963658965_016_00008323736748333642_116_00009617266646375675_017_00011074459165522269_016_00029950108064592316_115_00001224744871391589_0,
  016_00011474439689778415_017_00013105428197142516_116_00005342408576522114_016_00014659361885892956_017_00018929799756756668_016_00029950108064592316_115_00001224744871391589_0,
  016_00011974400026054626_017_00013105428197142516_116_00005230848206523292_016_00006433396846033335_016_00002678514034799107_116_00003338886116348349_015_00000816496580927726_0,
  016_00011974400026054626_017_00013105428197142516_116_00005788650056517404_015_00000492864714361999_016_00002992727658448483_016_00029950108064592316_115_00001224744871391589_0,
  016_00011974400026054626_016_00000636533963658965_016_00000960752328411357_116_00007109350475686768_016_00003778261717571923_116_00003338886116348349_015_00000816496580927726_0,
  016_00011474439689778415_016_00000636533963658965_116_00012147591146450287_016_00012753345596169388_016_00004092475341221299_116_00003338886116348349_015_00000816496580927726_1,
  016_00011974400026054626_016_00000636533963658965_017_00021321362133989932_117_00042001677176876356_017_00044066889648706753_116_00003338886116348349_115_00001224744871391589_0,
  016_00011974400026054626_017_00013105428197142516_017_00021879163983984046_116_00008814733471755224_017_00048780094003447394_116_00003338886116348349_015_00000816496580927726_0,
  016_00011974400026054626_016_00000636533963658965_116_00006736913201507395_016_00012352079008859156_016_00005192223023994115_116_00003338886116348349_015_00000816496580927726_0,
  016_00011974400026054626_017_00013105428197142516_116_00008187198011492087_016_00015863161647823627_016_00005506436647643491_116_00003338886116348349_115_00001224744871391589_0,
  016_00012474360362331123_017_00019845516757699214_116_00005175068021523881_016_00004025797322171985_016_00005977757083117555_116_00003338886116348349_015_00000816496580927726_0,
  016_00012474360362331123_017_00013105428197142516_116_00011701349666454997_016_00010646696012790704_016_00006291970706766932_116_00003338886116348349_015_00000816496580927726_1,
  016_00012474360362331123_017_00013105428197142516_017_00013512136234072358_116_00005203334185963199_016_00006606184330416307_116_00003338886116348349_015_00000816496580927726_0,
  016_00012474360362331123_017_00019845516757699214_116_00007462055606499741_015_00001746822799706453_016_00006920397954065683_116_00003338886116348349_015_00000816496580927726_0,
  016_00011974400026054626_017_00013105428197142516_015_00003822191590801807_116_00024062863789543782_015_00000723461157771506_116_00003338886116348349_015_00000816496580927726_0,
  016_00012474360362331123_017_00013105428197142516_016_00009885581928317156_116_00010118849880513456_016_00007548825201364435_116_00003338886116348349_015_00000816496580927726_0,
  016_00012474360362331123_017_00019845516757699214_016_00002522597508394872_117_00045011176581703016_016_00007863038825013812_116_00003338886116348349_015_00000816496580927726_0,
  016_00012474360362331123_017_00019845516757699214_116_00002832300251548608_017_00018188310919657433_016_00008177252448663187_116_00003338886116348349_115_00001224744871391589_0,
  016_00011974400026054626_017_00019845516757699214_115_00000919124134148149_016_00011248595893756042_016_00008648572884137251_116_00003338886116348349_015_00000816496580927726_1,
  016_00011974400026054626_017_00019845516757699214_116_00008968120601483845_016_00014358411945410283_016_00008962786507786628_116_00003338886116348349_115_00001224744871391589_1,
  016_00012474360362331123_017_00019845516757699214_017_00006818514034143008_117_00026954180152742907_016_00009434106943260692_116_00003338886116348349_015_00000816496580927726_0,
  016_00012474360362331123_017_00019845516757699214_017_00005702910334154783_016_00000915981270517738_016_00009748320566910068_116_00003338886116348349_015_00000816496580927726_0,
  016_00012474360362331123_017_00019845516757699214_116_00005119287836524469_117_00007894017255507152_016_00010062534190559445_116_00003338886116348349_115_00001224744871391589_0,
  016_00011974400026054626_017_00013105428197142516_116_00007740956531496798_015_00001375651206444495_016_00010533854626033508_116_00003338886116348349_015_00000816496580927726_0,
  016_00011974400026054626_016_00000636533963658965_116_00007685176346497387_016_00008840996369894685_016_00010848068249682883_116_00003338886116348349_015_00000816496580927726_0,
  016_00011974400026054626_016_00000636533963658965_016_00003247739913387218_115_00001112201634878902_015_00001116228187333226_016_00029950108064592316_115_00001224744871391589_0,
  016_00011474439689778415_016_00000636533963658965_116_00002888080436548019_016_00006032130258723112_014_00000119478159324557_116_00003338886116348349_015_00000816496580927726_0,
  016_00012474360362331123_017_00019845516757699214_016_00009550900818320689_115_00001272708269802992_016_00012262029556105076_116_00003338886116348349_115_00001224744871391589_0,
  016_00012974320698607618_016_00002658560531825208_115_00000339010210154272_016_00007737513254791571_015_00001273334999157914_116_00003338886116348349_015_00000816496580927726_0,
  016_00012974320698607618_016_00002658560531825208_015_00001139164692330126_116_00013730249166305482_016_00013047563615228517_116_00003338886116348349_015_00000816496580927726_0,
  016_00012974320698607618_017_00033325693878808776_016_00003191959728387807_116_00007209667122514325_016_00013361777238877892_116_00003338886116348349_015_00000816496580927726_0,
  016_00013474281034883828_017_00033325693878808776_016_00005757848238360724_116_00009216000059065448_016_00013675990862527267_116_00003338886116348349_015_00000816496580927726_0,
  016_00013474281034883828_017_00033325693878808776_116_00015382841876416138_016_00027901159267130384_016_00013990204486176645_116_00003338886116348349_015_00000816496580927726_1,
  016_00013974241371160325_017_00040065782439365477_015_00002661963742814053_115_00002015051456326909_015_00001430441810982602_116_00003338886116348349_015_00000816496580927726_0,
  016_00013974241371160325_017_00040065782439365477_016_00007375473603343651_116_00009516949999548118_016_00014618631733475396_116_00003338886116348349_015_00000816496580927726_0,
  016_00013974241371160325_017_00040065782439365477_116_00007517835791499152_016_00003223264147551537_016_00014932845357124773_116_00003338886116348349_015_00000816496580927726_0,
  016_00013974241371160325_017_00040065782439365477_117_00038363435815380104_017_00011166145641728534_016_00015247058980774149_116_00003338886116348349_015_00000816496580927726_0,
  016_00013974241371160325_017_00040065782439365477_017_00043633436133754433_117_00020935181343089515_016_00015561272604423524_116_00003338886116348349_015_00000816496580927726_0,
  016_00013474281034883828_017_00033325693878808776_016_00010387603593311858_116_00011021699701961463_014_00000158754862280729_116_00003338886116348349_015_00000816496580927726_0,
  016_00013474281034883828_017_00033325693878808776_116_00005175068021523881_016_00000915981270517738_016_00016189699851722277_116_00003338886116348349_015_00000816496580927726_1,
  016_00013474281034883828_017_00040065782439365477_017_00014069938084066472_115_00000570491742010098_116_00016959837443286896_116_00003338886116348349_015_00000816496580927726_0,
  016_00013974241371160325_017_00040065782439365477_015_00000731969341834424_116_00010921383055133904_116_00016645623819637518_116_00003338886116348349_015_00000816496580927726_0,
  016_00013474281034883828_017_00040065782439365477_117_00021071578465562615_016_00008740679723067134_116_00016331410195988143_116_00003338886116348349_015_00000816496580927726_0,
  016_00013474281034883828_017_00033325693878808776_017_00006818514034143008_117_00040998510708600777_116_00016017196572338768_116_00003338886116348349_015_00000816496580927726_0,
  016_00013474281034883828_017_00033325693878808776_017_00013512136234072358_116_00005002700892308083_115_00001570298294868939_116_00003338886116348349_015_00000816496580927726_0,
  016_00013474281034883828_017_00033325693878808776_116_00010474185596467949_017_00018188310919657433_116_00015388769325040015_116_00003338886116348349_015_00000816496580927726_1,
  016_00012974320698607618_016_00002658560531825208_115_00000690425375650563_016_00012151445715204048_115_00001507455570139064_116_00003338886116348349_015_00000816496580927726_0,
  016_00012974320698607618_017_00019845516757699214_016_00006036749163357781_116_00005805234066928531_116_00014760342077741262_116_00003338886116348349_015_00000816496580927726_0,
  016_00012474360362331123_017_00013105428197142516_116_00003445882286542132_016_00001618197798310635_116_00014446128454091887_116_00003338886116348349_015_00000816496580927726_0,
  016_00012974320698607618_017_00013105428197142516_016_00021432080223195284_116_00018545448214028186_116_00014131914830442511_116_00003338886116348349_015_00000816496580927726_0,
  016_00013474281034883828_016_00002658560531825208_116_00013040074106440867_016_00015261261766858294_116_00013817701206793134_016_00029950108064592316_115_00001224744871391589_1,
  016_00012974320698607618_016_00002658560531825208_018_00029139010841842207_117_00049023842454805255_116_00013032167147669695_116_00003338886116348349_115_00001224744871391589_0,
  016_00013474281034883828_017_00033325693878808776_016_00001630114548404292_117_00030966846025845146_115_00001256084671219563_016_00029950108064592316_115_00001224744871391589_0,
  016_00013474281034883828_016_00002658560531825208_116_00002776520066549197_016_00002721680913413756_115_00001177531265307219_116_00003338886116348349_015_00000816496580927726_0,
  016_00012974320698607618_016_00002658560531825208_116_00004896167096526824_015_00000312294750072398_116_00011461099029422814_116_00003338886116348349_115_00001224744871391589_0,
  016_00013474281034883828_016_00002658560531825208_018_00017982973841959956_117_00043004843645151863_116_00010989778593948751_116_00003338886116348349_015_00000816496580927726_0,
  016_00012974320698607618_017_00033325693878808776_016_00023774847993170556_116_00019849564622786418_116_00010675564970299374_116_00003338886116348349_115_00001224744871391589_0,
  016_00012474360362331123_017_00033325693878808776_116_00005732869871517993_117_00034979511898947385_115_00001020424453482531_116_00003338886116348349_015_00000816496580927726_0,
  016_00012474360362331123_016_00002658560531825208_117_00016609163665609716_117_00023944680747916175_116_00009890030911175934_116_00003338886116348349_115_00001224744871391589_0,
  016_00012474360362331123_016_00002658560531825208_116_00002888080436548019_018_00021376474272484798_115_00000941871047570187_116_00003338886116348349_015_00000816496580927726_0,
  016_00012474360362331123_016_00002658560531825208_015_00002388640836316938_116_00019749247975958861_116_00009104496852052494_116_00003338886116348349_015_00000816496580927726_0,
  016_00012974320698607618_016_00002658560531825208_116_00007238934866502097_016_00013355245477134718_116_00008790283228403118_016_00029950108064592316_115_00001224744871391589_0,
  016_00012974320698607618_017_00033325693878808776_116_00006625352831508573_016_00016465061528788967_116_00008004749169279678_116_00003338886116348349_115_00001224744871391589_0,
  016_00013474281034883828_017_00033325693878808776_117_00015493559965621492_117_00022941514279640599_116_00007533428733805614_116_00003338886116348349_015_00000816496580927726_0,
  016_00012974320698607618_016_00002658560531825208_016_00006148309533356603_115_00000991821658685834_116_00007219215110156237_016_00029950108064592316_115_00001224744871391589_0,
  016_00012974320698607618_016_00002658560531825208_116_00010027944116472658_016_00017267594703409421_116_00006433681051032798_116_00003338886116348349_015_00000816496580927726_1,
  016_00012474360362331123_016_00002658560531825208_017_00036939813933825083_115_00000399953442403252_116_00006119467427383422_116_00003338886116348349_115_00001224744871391589_0,
  016_00012474360362331123_017_00019845516757699214_117_00008799937765692141_115_00000399953442403252_116_00005648146991909357_116_00003338886116348349_015_00000816496580927726_0,
  016_00012974320698607618_016_00002658560531825208_017_00041960030583772095_115_00000399953442403252_116_00005333933368259982_016_00029950108064592316_115_00001224744871391589_0,
  016_00012974320698607618_017_00019845516757699214_016_00010164482853314214_116_00012626766051202365_117_00045483993091365416_016_00029950108064592316_115_00001224744871391589_0]

/-- lr/data.csv 4502-4601 -/
def dataCsv45 : List ℕ := [
  016_00012974320698607618_016_00002658560531825208_016_00005534727498363079_117_00037989011303774045_117_00037628652500131016_116_00003338886116348349_015_00000816496580927726_0,
  016_00012474360362331123_017_00013105428197142516_116_00012928513736442044_016_00014057462004927617_117_00034486516263637257_116_00003338886116348349_015_00000816496580927726_1,
  016_00011974400026054626_017_00013105428197142516_016_00005757848238360724_116_00011723916229754356_115_00000313443800271435_116_00003338886116348349_015_00000816496580927726_0,
  016_00012474360362331123_017_00013105428197142516_015_00001183788840329655_116_00009516949999548118_117_00028202243790649734_116_00003338886116348349_115_00001224744871391589_0,
  016_00011974400026054626_016_00000636533963658965_016_00005925188793358959_116_00008413466884444997_117_00023489039435909095_116_00003338886116348349_015_00000816496580927726_0,
  016_00011974400026054626_016_00000636533963658965_116_00006290671721512106_016_00006834663433343559_117_00020346903199415334_116_00003338886116348349_015_00000816496580927726_0,
  016_00011974400026054626_016_00000636533963658965_117_00010473343315674478_117_00033976345430671806_117_00017204766962921575_116_00003338886116348349_115_00001224744871391589_0,
  016_00011974400026054626_016_00000636533963658965_016_00009495120633321278_116_00008212833590789884_117_00012491562608180934_116_00003338886116348349_015_00000816496580927726_0,
  016_00011974400026054626_118_00003747489239670474_116_00006290671721512106_015_00000663403013968845_117_00009349426371687174_116_00003338886116348349_015_00000816496580927726_0,
  016_00011974400026054626_016_00000636533963658965_116_00006123331166513871_016_00003724847381689319_118_00062072901351934134_116_00003338886116348349_015_00000816496580927726_0,
  016_00011974400026054626_017_00013105428197142516_116_00010753086521465005_016_00022484060338442347_117_00003065153898699653_116_00003338886116348349_015_00000816496580927726_1,
  016_00012474360362331123_017_00013105428197142516_115_00000472882654152859_016_00003022630853896422_019_00007698233779410749_116_00003338886116348349_015_00000816496580927726_0,
  016_00012474360362331123_017_00019845516757699214_116_00007127374496503274_016_00009543212897687582_017_00003219118574287868_116_00003338886116348349_115_00001224744871391589_0,
  016_00011974400026054626_017_00019845516757699214_015_00002014913596820883_116_00015636265456029053_017_00007932322929028508_116_00003338886116348349_015_00000816496580927726_0,
  016_00011974400026054626_017_00019845516757699214_116_00003334321916543309_117_00037989011303774045_017_00011074459165522269_116_00003338886116348349_015_00000816496580927726_0,
  016_00012474360362331123_016_00002658560531825208_115_00000690425375650563_016_00008239096488929353_016_00001421659540201603_116_00003338886116348349_015_00000816496580927726_0,
  016_00012474360362331123_017_00019845516757699214_019_00012489183421365824_117_00009900350192058306_016_00001735873163850979_116_00003338886116348349_015_00000816496580927726_0,
  016_00011974400026054626_017_00019845516757699214_117_00010473343315674478_116_00008413466884444997_016_00002050086787500355_116_00003338886116348349_015_00000816496580927726_0,
  016_00011974400026054626_017_00019845516757699214_116_00003278541731543898_016_00005831496965067996_016_00002364300411149731_116_00003338886116348349_015_00000816496580927726_0,
  016_00011974400026054626_016_00002658560531825208_016_00007096572678346594_116_00010319483174168569_016_00002678514034799107_116_00003338886116348349_015_00000816496580927726_0,
  016_00011974400026054626_016_00002658560531825208_116_00004617266171529768_016_00007637196607964014_016_00002992727658448483_116_00003338886116348349_015_00000816496580927726_0,
  016_00011974400026054626_016_00002658560531825208_016_00018196829493229434_116_00016137848690166836_016_00003306941282097859_116_00003338886116348349_015_00000816496580927726_0,
  016_00012474360362331123_017_00033325693878808776_015_00002115317929819823_116_00018445131567200628_017_00036211549057472353_116_00003338886116348349_115_00001224744871391589_0,
  016_00012474360362331123_016_00002658560531825208_116_00002832300251548608_016_00008439729782584461_016_00004092475341221299_116_00003338886116348349_015_00000816496580927726_0,
  016_00012474360362331123_017_00033325693878808776_117_00006568730365715691_116_00001190668312860946_017_00044066889648706753_116_00003338886116348349_115_00001224744871391589_0,
  016_00011974400026054626_016_00002658560531825208_116_00004226804876533889_016_00002220097679275974_017_00048780094003447394_116_00003338886116348349_115_00001224744871391589_0,
  016_00011974400026054626_016_00002658560531825208_117_00009915541465680366_117_00014916182533436123_016_00005349329835818804_116_00003338886116348349_015_00000816496580927726_0,
  016_00011974400026054626_017_00033325693878808776_116_00009302801711480313_016_00005731180318240445_016_00005663543459468179_116_00003338886116348349_115_00001224744871391589_1,
  016_00012474360362331123_017_00033325693878808776_116_00001772476736559794_117_00004884517850680491_016_00006134863894942243_116_00003338886116348349_015_00000816496580927726_0,
  016_00011974400026054626_016_00002658560531825208_016_00002634157878393695_115_00000570491742010098_016_00006449077518591619_116_00003338886116348349_115_00001224744871391589_0,
  016_00012474360362331123_016_00002658560531825208_116_00002888080436548019_017_00020194643856208588_016_00006920397954065683_116_00003338886116348349_015_00000816496580927726_0,
  016_00012474360362331123_017_00033325693878808776_117_00010473343315674478_017_00012169312110004112_015_00000723461157771506_116_00003338886116348349_015_00000816496580927726_0,
  016_00012474360362331123_016_00002658560531825208_115_00000651379246150975_016_00001919147738793301_016_00007548825201364435_016_00029950108064592316_115_00001224744871391589_0,
  016_00011974400026054626_017_00019845516757699214_116_00009135461156482079_015_00001255271230251427_016_00008334359260487876_116_00003338886116348349_115_00001224744871391589_1,
  016_00011974400026054626_017_00013105428197142516_016_00005255826573366024_116_00012024866170237025_015_00000880567969596194_116_00003338886116348349_015_00000816496580927726_0,
  016_00011974400026054626_017_00013105428197142516_116_00001995597476557439_117_00037989011303774045_016_00009119893319611315_116_00003338886116348349_015_00000816496580927726_0,
  016_00011974400026054626_017_00013105428197142516_116_00010474185596467949_016_00005129280437275106_016_00009434106943260692_116_00003338886116348349_015_00000816496580927726_1,
  016_00011474439689778415_017_00013105428197142516_017_00005145108484160671_116_00004701750951825417_016_00009748320566910068_116_00003338886116348349_015_00000816496580927726_0,
  016_00011974400026054626_017_00019845516757699214_016_00021432080223195284_116_00016739748571132171_016_00010062534190559445_116_00003338886116348349_015_00000816496580927726_0,
  016_00012474360362331123_017_00019845516757699214_016_00002968838988390162_116_00007410300416169433_015_00001037674781420882_116_00003338886116348349_015_00000816496580927726_0,
  016_00012474360362331123_016_00002658560531825208_016_00002299476768397227_117_00044008010113427437_016_00010690961437858195_116_00003338886116348349_115_00001224744871391589_0,
  016_00012474360362331123_016_00002658560531825208_116_00006234891536512694_016_00006834663433343559_015_00001116228187333226_116_00003338886116348349_015_00000816496580927726_0,
  016_00012474360362331123_016_00002658560531825208_017_00023552569533966383_116_00007309983769341876_016_00011476495496981636_116_00003338886116348349_115_00001224744871391589_0,
  016_00012974320698607618_017_00033325693878808776_018_00017982973841959956_118_00008718519775782523_014_00000119478159324557_116_00003338886116348349_115_00001224744871391589_0,
  016_00012474360362331123_016_00002658560531825208_115_00001058574596646677_016_00015160945120030738_016_00012419136367929764_116_00003338886116348349_015_00000816496580927726_1,
  016_00012474360362331123_017_00033325693878808776_116_00004226804876533889_016_00003022630853896422_015_00001273334999157914_116_00003338886116348349_015_00000816496580927726_0,
  016_00012474360362331123_016_00002658560531825208_116_00006123331166513871_016_00003223264147551537_016_00013047563615228517_116_00003338886116348349_115_00001224744871391589_0,
  016_00012474360362331123_016_00002658560531825208_116_00004896167096526824_016_00013656195417617392_015_00001351888405070258_116_00003338886116348349_115_00001224744871391589_0,
  016_00012974320698607618_017_00033325693878808776_117_00015493559965621492_117_00027957346621018414_016_00013990204486176645_116_00003338886116348349_015_00000816496580927726_0,
  016_00012974320698607618_017_00040065782439365477_017_00005702910334154783_117_00024947847216191754_015_00001430441810982602_116_00003338886116348349_015_00000816496580927726_0,
  016_00012474360362331123_017_00033325693878808776_116_00001772476736559794_018_00021376474272484798_016_00014618631733475396_116_00003338886116348349_115_00001224744871391589_0,
  016_00012974320698607618_017_00033325693878808776_117_00008242135915698029_116_00006306817301066312_015_00001508995216894946_116_00003338886116348349_115_00001224744871391589_0,
  016_00013474281034883828_017_00033325693878808776_014_00000190335322682206_116_00017341648452097511_016_00015561272604423524_116_00003338886116348349_115_00001224744871391589_0,
  016_00012974320698607618_017_00033325693878808776_117_00043383652465327116_016_00005430230377757772_116_00016959837443286896_116_00003338886116348349_015_00000816496580927726_0,
  016_00012974320698607618_017_00033325693878808776_016_00011670547848298316_116_00011824232876581913_116_00016645623819637518_116_00003338886116348349_015_00000816496580927726_0,
  016_00013474281034883828_017_00040065782439365477_016_00008435297118332464_116_00013328982578995259_116_00016331410195988143_116_00003338886116348349_015_00000816496580927726_0,
  016_00013474281034883828_017_00040065782439365477_115_00001058574596646677_016_00011248595893756042_116_00016017196572338768_116_00003338886116348349_115_00001224744871391589_1,
  016_00013474281034883828_017_00040065782439365477_016_00008212176378334819_116_00013730249166305482_116_00015545876136864702_116_00003338886116348349_015_00000816496580927726_0,
  016_00013474281034883828_016_00004680587099991834_116_00009470142266478546_016_00007536879961136456_116_00015231662513215327_116_00003338886116348349_015_00000816496580927726_1,
  016_00013474281034883828_016_00004680587099991834_116_00005900210426516227_016_00003724847381689319_115_00001491744888956595_116_00003338886116348349_015_00000816496580927726_0,
  016_00013474281034883828_016_00004680587099991834_016_00003247739913387218_016_00001919147738793301_116_00014603235265916574_116_00003338886116348349_015_00000816496580927726_0,
  016_00014474201707436536_016_00005354595956047504_016_00003972882318379565_116_00007811567003479657_114_00000142890216422672_116_00003338886116348349_015_00000816496580927726_0,
  016_00013474281034883828_016_00004680587099991834_115_00000785251690149562_016_00017769177937547203_116_00013974808018617824_116_00003338886116348349_015_00000816496580927726_0,
  016_00013474281034883828_016_00004680587099991834_016_00024444210213163493_116_00020050197916441532_116_00013660594394968446_116_00003338886116348349_015_00000816496580927726_0,
  016_00013974241371160325_016_00005354595956047504_117_00012704550715650928_117_00004884517850680491_115_00001334638077131907_116_00003338886116348349_015_00000816496580927726_0,
  016_00013474281034883828_016_00005354595956047504_116_00014713479656423203_015_00001506062847320318_116_00013032167147669695_016_00029950108064592316_115_00001224744871391589_1,
  016_00013974241371160325_016_00005354595956047504_116_00007629396161497976_016_00010546379365963146_116_00012246633088546255_116_00003338886116348349_015_00000816496580927726_0,
  016_00013974241371160325_016_00005354595956047504_116_00004896167096526824_016_00004728013849964882_116_00011932419464896877_116_00003338886116348349_115_00001224744871391589_0,
  016_00013474281034883828_016_00005354595956047504_017_00009049721434119458_117_00038992177772049624_116_00011461099029422814_116_00003338886116348349_115_00001224744871391589_0,
  016_00013974241371160325_015_00000602860481210279_016_00005423167128364257_116_00005002700892308083_116_00010989778593948751_116_00003338886116348349_015_00000816496580927726_0,
  016_00013974241371160325_015_00000602860481210279_116_00012649612811444988_016_00012251762362031606_116_00010675564970299374_116_00003338886116348349_015_00000816496580927726_1,
  016_00013974241371160325_015_00000602860481210279_016_00009439340448321867_115_00001021916652734101_116_00010361351346649998_116_00003338886116348349_015_00000816496580927726_0,
  016_00014474201707436536_015_00000670261366815846_016_00000960752328411357_117_00034979511898947385_116_00010047137723000623_116_00003338886116348349_115_00001224744871391589_0,
  016_00013974241371160325_015_00000670261366815846_116_00005732869871517993_016_00003524214088034203_116_00009575817287526558_016_00029950108064592316_115_00001224744871391589_0,
  016_00014474201707436536_015_00000670261366815846_116_00007629396161497976_017_00007153479768626296_116_00008790283228403118_116_00003338886116348349_115_00001224744871391589_0,
  016_00014474201707436536_015_00000670261366815846_116_00005677089686518582_016_00009944479484997806_116_00008318962792929054_116_00003338886116348349_115_00001224744871391589_0,
  016_00014474201707436536_015_00000737662252421413_015_00002159942077819352_116_00018244498273545515_115_00000784764235745499_116_00003338886116348349_115_00001224744871391589_0,
  016_00014974162043713033_016_00008050631380269416_016_00014571117468267702_116_00016338481983821946_116_00007376321921980926_116_00003338886116348349_015_00000816496580927726_0,
  016_00014974162043713033_016_00008050631380269416_016_00005702068053361313_116_00007410300416169433_115_00000706210829833155_116_00003338886116348349_015_00000816496580927726_0,
  016_00014974162043713033_016_00008050631380269416_115_00000919124134148149_016_00008239096488929353_116_00006747894674682174_116_00003338886116348349_015_00000816496580927726_1,
  016_00014974162043713033_016_00008050631380269416_117_00024976191415521404_117_00029963679557569567_116_00006433681051032798_116_00003338886116348349_015_00000816496580927726_0,
  016_00014974162043713033_016_00008050631380269416_017_00034708606533848635_116_00007109350475686768_116_00006119467427383422_116_00003338886116348349_015_00000816496580927726_0,
  016_00014474201707436536_016_00008050631380269416_016_00005311606758365435_117_00030966846025845146_116_00005805253803734046_116_00003338886116348349_015_00000816496580927726_0,
  016_00014474201707436536_016_00008050631380269416_116_00004003684136536244_117_00022941514279640599_115_00000549104018008467_116_00003338886116348349_115_00001224744871391589_0,
  016_00013974241371160325_015_00000737662252421413_017_00006260712184148895_116_00007711250356652106_116_00005019719744610606_116_00003338886116348349_015_00000816496580927726_0,
  016_00013974241371160325_015_00000737662252421413_017_00013512136234072358_116_00007811567003479657_115_00000470550612096123_116_00003338886116348349_015_00000816496580927726_0,
  016_00013474281034883828_015_00000602860481210279_116_00008019857456493854_016_00008339413135756903_116_00004391292497311854_116_00003338886116348349_015_00000816496580927726_0,
  016_00013974241371160325_015_00000670261366815846_116_00001772476736559794_116_00006607767241548985_117_00040770788736624775_116_00003338886116348349_115_00001224744871391589_0,
  016_00013974241371160325_015_00000670261366815846_017_00014069938084066472_117_00014916182533436123_117_00036057584381884134_116_00003338886116348349_015_00000816496580927726_0,
  016_00013974241371160325_015_00000737662252421413_016_00010164482853314214_116_00010018533233685898_117_00032915448145390375_116_00003338886116348349_015_00000816496580927726_0,
  016_00013974241371160325_015_00000737662252421413_116_00004617266171529768_117_00038992177772049624_117_00029773311908896616_116_00003338886116348349_015_00000816496580927726_0,
  016_00014474201707436536_016_00008050631380269416_016_00031416733338089897_115_00002225716414664777_117_00026631175672402857_016_00029950108064592316_115_00001224744871391589_0,
  016_00014474201707436536_015_00000737662252421413_017_00009049721434119458_116_00006106184007411204_117_00018775835081168454_116_00003338886116348349_015_00000816496580927726_0,
  016_00014974162043713033_016_00008050631380269416_116_00007238934866502097_016_00001919147738793301_117_00015633698844674693_116_00003338886116348349_015_00000816496580927726_0,
  016_00014974162043713033_016_00008050631380269416_116_00008466098936489144_017_00014175645046555194_117_00012491562608180934_116_00003338886116348349_115_00001224744871391589_0,
  016_00014974162043713033_016_00008050631380269416_117_00043941454315321227_016_00003925480675344427_117_00007778358253440293_116_00003338886116348349_115_00001224744871391589_0,
  016_00014974162043713033_016_00008050631380269416_116_00009916383746473837_016_00007637196607964014_117_00003065153898699653_116_00003338886116348349_015_00000816496580927726_1,
  016_00014974162043713033_015_00000737662252421413_116_00002720739881549785_016_00003022630853896422_019_00007698233779410749_116_00003338886116348349_115_00001224744871391589_0,
  016_00015474122379989528_016_00008050631380269416_116_00007796736716496209_016_00009242262957204916_017_00004790186692534748_116_00003338886116348349_015_00000816496580927726_0,
  016_00015474122379989528_015_00000737662252421413_116_00006625352831508573_016_00015863161647823627_017_00007932322929028508_116_00003338886116348349_015_00000816496580927726_0]

/-- lr/data.csv 4602-4701 -/
def dataCsv46 : List ℕ := [
  016_00014974162043713033_015_00000670261366815846_116_00010027944116472658_017_00042264306158271003_017_00011074459165522269_116_00003338886116348349_015_00000816496580927726_1,
  016_00014974162043713033_015_00000737662252421413_116_00009302801711480313_016_00014358411945410283_016_00001421659540201603_116_00003338886116348349_115_00001224744871391589_1,
  016_00014974162043713033_015_00000670261366815846_116_00007238934866502097_017_00017185144451381926_017_00018929799756756668_116_00003338886116348349_115_00001224744871391589_0,
  016_00014474201707436536_015_00000670261366815846_116_00004840386911527413_016_00018371077818512536_016_00002364300411149731_016_00029950108064592316_115_00001224744871391589_0,
  016_00014474201707436536_015_00000670261366815846_016_00015686721168255926_116_00015435632162373938_016_00003149834470273171_116_00003338886116348349_015_00000816496580927726_0,
  016_00014474201707436536_015_00000670261366815846_117_00038921237665374214_016_00008740679723067134_016_00003464048093922547_016_00029950108064592316_115_00001224744871391589_0,
  016_00014474201707436536_015_00000737662252421413_016_00000960752328411357_016_00005329913730930215_016_00004249582153045987_116_00003338886116348349_015_00000816496580927726_0,
  016_00014974162043713033_015_00000737662252421413_016_00024611550768161727_116_00019849564622786418_016_00004563795776695363_116_00003338886116348349_015_00000816496580927726_0,
  016_00014974162043713033_016_00008050631380269416_117_00011031145165668592_116_00001993201487481394_017_00048780094003447394_116_00003338886116348349_115_00001224744871391589_0,
  016_00014974162043713033_016_00008050631380269416_116_00004617266171529768_016_00004025797322171985_016_00005349329835818804_116_00003338886116348349_015_00000816496580927726_0,
  016_00015474122379989528_016_00008050631380269416_116_00008075637641493265_016_00005329913730930215_016_00005663543459468179_116_00003338886116348349_015_00000816496580927726_0,
  016_00014974162043713033_016_00008724640236325086_116_00009693263006476192_016_00016264428235133859_016_00005977757083117555_116_00003338886116348349_015_00000816496580927726_1,
  016_00014974162043713033_016_00008724640236325086_016_00036548510358035733_113_00000023561280555406_016_00006291970706766932_116_00003338886116348349_015_00000816496580927726_0,
  016_00015474122379989528_016_00008724640236325086_116_00007573615976498564_015_00001566252835416852_016_00006606184330416307_116_00003338886116348349_015_00000816496580927726_0,
  016_00014974162043713033_016_00008050631380269416_116_00001995597476557439_117_00029963679557569567_016_00006920397954065683_016_00029950108064592316_115_00001224744871391589_0,
  016_00014974162043713033_016_00008724640236325086_016_00014180656173271824_116_00010720749761478792_016_00007705932013189124_116_00003338886116348349_015_00000816496580927726_0,
  016_00015474122379989528_016_00009398649092380373_015_00001618874283325063_116_00015535948809201496_016_00008020145636838499_116_00003338886116348349_015_00000816496580927726_0,
  016_00015474122379989528_016_00009398649092380373_015_00001630030320324945_116_00016739748571132171_016_00008334359260487876_116_00003338886116348349_115_00001224744871391589_0,
  016_00014974162043713033_016_00008724640236325086_116_00011366668556458528_016_00013656195417617392_015_00000880567969596194_116_00003338886116348349_115_00001224744871391589_1,
  016_00015474122379989528_016_00008724640236325086_015_00002885084482811698_114_00000203511478569242_016_00009277000131436004_016_00029950108064592316_115_00001224744871391589_0,
  016_00015474122379989528_016_00008724640236325086_116_00011310888371459118_015_00001265302894934183_016_00010062534190559445_116_00003338886116348349_015_00000816496580927726_1,
  016_00014974162043713033_016_00008050631380269416_116_00011031987446462062_016_00011047962600100927_015_00001037674781420882_116_00003338886116348349_015_00000816496580927726_1,
  016_00014974162043713033_015_00000737662252421413_117_00007126532215709803_117_00026954180152742907_016_00010690961437858195_116_00003338886116348349_115_00001224744871391589_0,
  016_00014974162043713033_015_00000737662252421413_117_00007684334065703917_017_00007153479768626296_015_00001116228187333226_116_00003338886116348349_015_00000816496580927726_0,
  016_00014974162043713033_015_00000737662252421413_116_00006179111351513282_118_00018750184458538297_016_00011476495496981636_116_00003338886116348349_115_00001224744871391589_0,
  016_00014974162043713033_016_00008050631380269416_117_00015493559965621492_016_00005731180318240445_014_00000119478159324557_116_00003338886116348349_015_00000816496580927726_0,
  016_00014974162043713033_016_00008050631380269416_016_00006985012308347772_115_00001021916652734101_016_00012262029556105076_116_00003338886116348349_015_00000816496580927726_0,
  016_00014974162043713033_016_00008050631380269416_016_00002968838988390162_117_00010903516660333884_016_00012576243179754452_116_00003338886116348349_115_00001224744871391589_0,
  016_00014974162043713033_015_00000737662252421413_016_00003247739913387218_117_00032973178962396227_016_00013047563615228517_116_00003338886116348349_115_00001224744871391589_0,
  016_00014974162043713033_016_00008050631380269416_015_00001094540544330597_116_00013930882459960594_015_00001351888405070258_116_00003338886116348349_015_00000816496580927726_0,
  016_00014474201707436536_016_00008050631380269416_015_00001183788840329655_115_00001623816533699439_016_00013833097674351955_116_00003338886116348349_015_00000816496580927726_0,
  016_00014974162043713033_016_00008050631380269416_116_00008689219676486789_016_00004627697203137324_016_00014147311298001333_116_00003338886116348349_015_00000816496580927726_0,
  016_00014474201707436536_016_00008050631380269416_116_00011645569481455584_015_00001375651206444495_016_00014461524921650708_116_00003338886116348349_115_00001224744871391589_1,
  016_00014974162043713033_016_00008050631380269416_114_00000087449998614862_016_00010546379365963146_016_00014932845357124773_116_00003338886116348349_015_00000816496580927726_0,
  016_00014974162043713033_016_00008050631380269416_016_00012061009143294195_116_00009617266646375675_016_00015247058980774149_116_00003338886116348349_015_00000816496580927726_0,
  016_00014974162043713033_016_00008050631380269416_017_00041960030583772095_117_00043004843645151863_016_00015561272604423524_116_00003338886116348349_115_00001224744871391589_0,
  016_00014974162043713033_016_00008724640236325086_116_00004059464321535655_016_00003022630853896422_015_00001603259303989759_116_00003338886116348349_015_00000816496580927726_0,
  016_00015474122379989528_016_00008724640236325086_015_00001719278616324003_116_00015335315515546384_016_00016346806663546964_116_00003338886116348349_115_00001224744871391589_0,
  016_00015474122379989528_016_00008724640236325086_117_00036132228415403655_116_00005203334185963199_016_00016818127099021027_116_00003338886116348349_015_00000816496580927726_0,
  016_00015474122379989528_016_00008724640236325086_016_00006594551013351894_116_00008212833590789884_016_00017132340722670405_116_00003338886116348349_015_00000816496580927726_0,
  016_00015474122379989528_016_00008050631380269416_116_00005788650056517404_018_00011344809589729025_015_00001744655434631978_116_00003338886116348349_015_00000816496580927726_0,
  016_00015474122379989528_016_00008724640236325086_117_00024976191415521404_016_00002721680913413756_016_00017760767969969156_016_00029950108064592316_115_00001224744871391589_0,
  015_00001597408271626574_016_00009398649092380373_115_00001677734650140142_016_00014659361885892956_016_00018546302029092596_116_00003338886116348349_015_00000816496580927726_1,
  015_00001597408271626574_016_00009398649092380373_116_00011980250591452053_016_00014258095298582731_016_00018860515652741972_116_00003338886116348349_015_00000816496580927726_1,
  015_00001597408271626574_016_00009398649092380373_117_00013820154415639155_017_00012169312110004112_015_00001917472927639135_116_00003338886116348349_015_00000816496580927726_0,
  016_00016474043052542235_016_00009398649092380373_016_00010778064888307737_116_00014432465694098375_016_00019488942900040724_116_00003338886116348349_015_00000816496580927726_0,
  016_00016474043052542235_016_00009398649092380373_117_00023302785865539066_016_00006032130258723112_014_00000198031565236901_116_00003338886116348349_015_00000816496580927726_1,
  016_00016474043052542235_016_00009398649092380373_016_00023384386698174677_116_00018545448214028186_116_00016959837443286896_116_00003338886116348349_015_00000816496580927726_0,
  016_00016474043052542235_016_00009398649092380373_016_00005088486018367789_116_00007510617062996991_116_00016645623819637518_116_00003338886116348349_015_00000816496580927726_0,
  016_00016474043052542235_016_00009398649092380373_116_00008019857456493854_015_00001917361099313299_116_00016331410195988143_116_00003338886116348349_115_00001224744871391589_0,
  016_00016474043052542235_016_00009398649092380373_016_00006650331198351305_116_00009516949999548118_116_00015860089760514078_116_00003338886116348349_015_00000816496580927726_0,
  015_00001597408271626574_016_00009398649092380373_115_00001058574596646677_016_00011148279246928485_116_00015545876136864702_116_00003338886116348349_015_00000816496580927726_1,
  016_00015474122379989528_016_00008050631380269416_116_00004840386911527413_016_00012953978889824496_116_00015231662513215327_116_00003338886116348349_015_00000816496580927726_0,
  016_00015474122379989528_015_00000737662252421413_017_00030803993583889844_117_00045011176581703016_115_00001491744888956595_116_00003338886116348349_115_00001224744871391589_0,
  016_00015474122379989528_015_00000670261366815846_117_00016051361815615603_016_00007637196607964014_116_00014446128454091887_116_00003338886116348349_115_00001224744871391589_0,
  016_00015474122379989528_015_00000737662252421413_016_00017583247458235909_116_00017441965098925065_116_00013974808018617824_116_00003338886116348349_015_00000816496580927726_0,
  016_00015474122379989528_016_00008050631380269416_017_00048653652783701445_116_00007711250356652106_116_00013660594394968446_116_00003338886116348349_015_00000816496580927726_0,
  016_00015474122379989528_016_00008050631380269416_016_00004976925648368967_117_00048020675986529676_115_00001334638077131907_116_00003338886116348349_015_00000816496580927726_0,
  016_00015474122379989528_016_00008050631380269416_015_00000782171508333894_116_00005203334185963199_116_00013032167147669695_116_00003338886116348349_015_00000816496580927726_0,
  016_00015474122379989528_016_00008050631380269416_116_00002776520066549197_017_00045273805563097663_116_00012717953524020318_116_00003338886116348349_115_00001224744871391589_0,
  015_00001597408271626574_016_00008050631380269416_115_00000556552931651976_016_00003925480675344427_116_00012246633088546255_116_00003338886116348349_015_00000816496580927726_0,
  016_00016474043052542235_016_00008724640236325086_115_00001052996578146736_016_00008138779842101795_116_00011932419464896877_116_00003338886116348349_015_00000816496580927726_1,
  016_00016474043052542235_016_00008050631380269416_016_00003805541763381331_116_00008313150237617443_116_00011618205841247502_016_00029950108064592316_115_00001224744871391589_0,
  016_00016474043052542235_016_00008724640236325086_116_00008354538566490322_016_00013957145358100058_116_00010832671782124061_116_00003338886116348349_015_00000816496580927726_0,
  016_00016474043052542235_016_00008724640236325086_017_00015185541784054696_016_00006132446905550669_116_00010518458158474686_116_00003338886116348349_115_00001224744871391589_0,
  016_00016974003388818448_016_00009398649092380373_116_00012928513736442044_016_00014057462004927617_116_00010047137723000623_116_00003338886116348349_115_00001224744871391589_1,
  016_00016474043052542235_016_00010072657948436043_017_00016858947334037033_117_00033976345430671806_116_00009575817287526558_116_00003338886116348349_115_00001224744871391589_0,
  016_00016474043052542235_016_00009398649092380373_016_00006259869903355426_116_00009416633352720559_116_00009104496852052494_016_00029950108064592316_115_00001224744871391589_0,
  016_00016474043052542235_016_00009398649092380373_016_00008546857488331286_116_00012125182817064584_116_00008318962792929054_016_00029950108064592316_115_00001224744871391589_0,
  016_00016474043052542235_016_00010072657948436043_116_00009247021526480902_016_00007336246667481341_116_00007533428733805614_116_00003338886116348349_115_00001224744871391589_1,
  015_00001597408271626574_016_00009398649092380373_016_00003972882318379565_117_00045011176581703016_115_00000706210829833155_116_00003338886116348349_015_00000816496580927726_0,
  016_00016474043052542235_016_00009398649092380373_117_00015493559965621492_016_00003423897441206646_116_00006747894674682174_116_00003338886116348349_015_00000816496580927726_0,
  016_00016474043052542235_016_00010072657948436043_116_00007071594311503863_015_00001566252835416852_116_00006433681051032798_116_00003338886116348349_015_00000816496580927726_0,
  016_00016974003388818448_016_00010072657948436043_117_00021071578465562615_117_00037989011303774045_116_00006119467427383422_116_00003338886116348349_015_00000816496580927726_0,
  016_00016974003388818448_016_00010072657948436043_115_00000696003394150504_016_00004828330496792433_116_00005805253803734046_116_00003338886116348349_015_00000816496580927726_0,
  016_00017473963725094943_016_00010072657948436043_016_00005032705833368378_116_00006507450594721428_115_00000549104018008467_016_00029950108064592316_115_00001224744871391589_0,
  016_00016974003388818448_016_00010072657948436043_015_00001897775208322119_116_00018746081507683297_115_00000470550612096123_116_00003338886116348349_015_00000816496580927726_0,
  016_00017473963725094943_016_00010746666804491714_116_00004059464321535655_016_00007035296726998674_116_00004391292497311854_016_00029950108064592316_115_00001224744871391589_0,
  015_00001797392406137144_013_00000011420675660547_116_00003501662471541543_018_00011344809589729025_117_00036057584381884134_016_00029950108064592316_115_00001224744871391589_0,
  015_00001797392406137144_015_00001209468451660267_016_00008714198043329521_116_00009316316705893005_117_00028202243790649734_116_00003338886116348349_015_00000816496580927726_0,
  015_00001797392406137144_013_00000011420675660547_116_00002664959696550374_118_00018750184458538297_117_00025060107554155975_116_00003338886116348349_015_00000816496580927726_0,
  015_00001797392406137144_015_00001209468451660267_016_00006706111383350716_115_00000530365083279075_117_00021917971317662216_116_00003338886116348349_115_00001224744871391589_0,
  015_00001797392406137144_015_00001209468451660267_016_00001574334363404881_116_00008313150237617443_117_00017204766962921575_116_00003338886116348349_015_00000816496580927726_0,
  015_00001797392406137144_015_00001209468451660267_015_00001100118562830538_116_00007109350475686768_117_00014062630726427813_116_00003338886116348349_015_00000816496580927726_0,
  015_00001797392406137144_015_00001209468451660267_116_00006569572646509162_016_00004828330496792433_117_00010920494489934053_116_00003338886116348349_115_00001224744871391589_1,
  015_00001797392406137144_015_00001209468451660267_017_00049211454633695556_116_00009216000059065448_118_00062072901351934134_116_00003338886116348349_115_00001224744871391589_0,
  016_00017473963725094943_016_00010746666804491714_017_00012954334384078245_116_00005805234066928531_118_00014940857804527726_116_00003338886116348349_115_00001224744871391589_0,
  016_00017473963725094943_016_00010746666804491714_015_00003593492832304221_115_00002305969732126822_017_00003219118574287868_116_00003338886116348349_015_00000816496580927726_0,
  016_00017473963725094943_016_00010746666804491714_017_00021321362133989932_116_00001892884840653836_017_00006361254810781627_116_00003338886116348349_015_00000816496580927726_0,
  016_00016974003388818448_016_00010072657948436043_017_00011838730684090021_117_00035982678367222964_017_00009503391047275388_116_00003338886116348349_115_00001224744871391589_0,
  016_00016974003388818448_016_00010072657948436043_117_00031112011765456643_016_00003022630853896422_016_00001421659540201603_116_00003338886116348349_115_00001224744871391589_0,
  016_00017473963725094943_016_00010072657948436043_118_00021063155657627917_116_00006708083888376544_017_00018929799756756668_116_00003338886116348349_015_00000816496580927726_0,
  016_00016974003388818448_016_00009398649092380373_017_00037497615783819194_116_00010419799820996123_016_00002207193599325043_116_00003338886116348349_115_00001224744871391589_0,
  016_00016974003388818448_016_00010072657948436043_016_00015519380613257694_116_00015335315515546384_016_00002678514034799107_116_00003338886116348349_115_00001224744871391589_0,
  016_00016974003388818448_016_00010072657948436043_116_00006402232091510928_016_00010847329306445812_016_00003149834470273171_116_00003338886116348349_015_00000816496580927726_0,
  016_00016474043052542235_016_00010746666804491714_117_00013820154415639155_115_00000530365083279075_016_00003464048093922547_116_00003338886116348349_015_00000816496580927726_0,
  016_00016974003388818448_016_00010746666804491714_116_00005007727466525647_017_00017185144451381926_016_00003778261717571923_116_00003338886116348349_015_00000816496580927726_0,
  016_00017473963725094943_016_00010746666804491714_017_00019090154734013484_116_00006005867360583647_016_00004092475341221299_116_00003338886116348349_115_00001224744871391589_0,
  016_00016974003388818448_016_00010746666804491714_017_00014069938084066472_016_00001919147738793301_016_00004563795776695363_116_00003338886116348349_015_00000816496580927726_0,
  016_00017473963725094943_016_00010746666804491714_116_00006179111351513282_016_00006232763552378227_017_00048780094003447394_116_00003338886116348349_015_00000816496580927726_0]

/-- lr/data.csv 4702-4801 -/
def dataCsv47 : List ℕ := [
  016_00017473963725094943_013_00000011420675660547_016_00004530684168373677_116_00009015366765410335_016_00005192223023994115_116_00003338886116348349_015_00000816496580927726_0,
  016_00017473963725094943_013_00000011420675660547_016_00002522597508394872_116_00007309983769341876_016_00005506436647643491_016_00029950108064592316_115_00001224744871391589_0,
  015_00001797392406137144_015_00001209468451660267_113_00000017669829461392_015_00002689799279885482_016_00006291970706766932_116_00003338886116348349_015_00000816496580927726_1,
  015_00001797392406137144_015_00001209468451660267_116_00005955990611515638_015_00000252104761975864_016_00006606184330416307_116_00003338886116348349_115_00001224744871391589_0,
  015_00001847388439764765_016_00012768693372657955_017_00012396532534084133_116_00006708083888376544_016_00007077504765890371_116_00003338886116348349_015_00000816496580927726_0,
  015_00001797392406137144_015_00001209468451660267_017_00041960030583772095_116_00006808400535204094_016_00007391718389539748_116_00003338886116348349_015_00000816496580927726_0,
  016_00017473963725094943_013_00000011420675660547_015_00002344016688317409_116_00017742915039407734_016_00007705932013189124_116_00003338886116348349_015_00000816496580927726_0,
  016_00017473963725094943_015_00001209468451660267_015_00002260346410818292_115_00001653911527747706_016_00008020145636838499_116_00003338886116348349_015_00000816496580927726_0,
  016_00016974003388818448_013_00000011420675660547_016_00014180656173271824_116_00014231832400443263_016_00008334359260487876_116_00003338886116348349_015_00000816496580927726_0,
  016_00016974003388818448_016_00010746666804491714_116_00005175068021523881_016_00010044796131825364_016_00008648572884137251_116_00003338886116348349_115_00001224744871391589_0,
  016_00016974003388818448_013_00000011420675660547_016_00007487033973342473_116_00007811567003479657_016_00009119893319611315_116_00003338886116348349_015_00000816496580927726_0,
  016_00016974003388818448_013_00000011420675660547_117_00013262352565645041_017_00042264306158271003_016_00009434106943260692_116_00003338886116348349_115_00001224744871391589_0,
  016_00016974003388818448_015_00001209468451660267_017_00014069938084066472_117_00040998510708600777_016_00009905427378734756_116_00003338886116348349_015_00000816496580927726_0,
  016_00017473963725094943_015_00001209468451660267_116_00004896167096526824_016_00005229597084102664_016_00010219641002384132_116_00003338886116348349_015_00000816496580927726_0,
  016_00016974003388818448_015_00001209468451660267_016_00008602637673330699_116_00011723916229754356_016_00010533854626033508_016_00029950108064592316_115_00001224744871391589_0,
  016_00016974003388818448_013_00000011420675660547_116_00003501662471541543_017_00023204143261035248_016_00011319388685156948_116_00003338886116348349_015_00000816496580927726_0,
  016_00016974003388818448_016_00010746666804491714_016_00009662461188319512_115_00000991821658685834_016_00011633602308806323_116_00003338886116348349_015_00000816496580927726_0,
  016_00016974003388818448_016_00010746666804491714_116_00006346451906511517_016_00005430230377757772_014_00000119478159324557_116_00003338886116348349_115_00001224744871391589_0,
  016_00016474043052542235_016_00010746666804491714_116_00011255108186459706_015_00001686632811609919_016_00012419136367929764_116_00003338886116348349_015_00000816496580927726_1,
  016_00016974003388818448_013_00000011420675660547_016_00008435297118332464_116_00005103017539135641_015_00001273334999157914_116_00003338886116348349_115_00001224744871391589_0,
  016_00016974003388818448_013_00000011420675660547_116_00010362625226469127_016_00004126113968999543_016_00013204670427053204_116_00003338886116348349_115_00001224744871391589_1,
  016_00017473963725094943_015_00001209468451660267_015_00002165520096319293_116_00018144181626717961_016_00013675990862527267_116_00003338886116348349_015_00000816496580927726_0,
  016_00016974003388818448_015_00001209468451660267_116_00008242978196491499_016_00002721680913413756_016_00013990204486176645_116_00003338886116348349_115_00001224744871391589_0,
  016_00016974003388818448_015_00001209468451660267_115_00000963748282147678_016_00010947645953273368_016_00014461524921650708_116_00003338886116348349_015_00000816496580927726_1,
  016_00016974003388818448_016_00012768693372657955_016_00012953492103284776_116_00008413466884444997_016_00014775738545300083_116_00003338886116348349_015_00000816496580927726_0,
  016_00016974003388818448_015_00001209468451660267_117_00013262352565645041_016_00002621364266586198_015_00001508995216894946_116_00003338886116348349_115_00001224744871391589_0,
  016_00016974003388818448_015_00001209468451660267_016_00033145919073071646_115_00002175558091250999_016_00015561272604423524_116_00003338886116348349_115_00001224744871391589_0,
  016_00016974003388818448_015_00001209468451660267_116_00011031987446462062_016_00007035296726998674_015_00001603259303989759_116_00003338886116348349_115_00001224744871391589_1,
  016_00016974003388818448_013_00000011420675660547_115_00000740627542150033_016_00007135613373826232_016_00016503913475371652_116_00003338886116348349_015_00000816496580927726_0,
  016_00016974003388818448_015_00001209468451660267_116_00012984293921441454_015_00002107962728285656_016_00016818127099021027_116_00003338886116348349_015_00000816496580927726_1,
  016_00016474043052542235_013_00000011420675660547_116_00001716696551560383_117_00045011176581703016_016_00017132340722670405_116_00003338886116348349_015_00000816496580927726_0,
  016_00016474043052542235_016_00010746666804491714_115_00001326319484643851_016_00005129280437275106_015_00001744655434631978_116_00003338886116348349_015_00000816496580927726_1,
  016_00016474043052542235_013_00000011420675660547_019_00012489183421365824_117_00014916182533436123_016_00017760767969969156_116_00003338886116348349_015_00000816496580927726_0,
  016_00016474043052542235_016_00010746666804491714_117_00030554209915462527_016_00004627697203137324_016_00018074981593618533_116_00003338886116348349_015_00000816496580927726_0,
  015_00001597408271626574_016_00010072657948436043_116_00001772476736559794_117_00007894017255507152_016_00018389195217267909_116_00003338886116348349_015_00000816496580927726_0,
  015_00001597408271626574_016_00010072657948436043_018_00029139010841842207_015_00000252104761975864_016_00018703408840917284_116_00003338886116348349_015_00000816496580927726_0,
  015_00001597408271626574_016_00010072657948436043_117_00014377956265633265_117_00020935181343089515_116_00016959837443286896_116_00003338886116348349_015_00000816496580927726_0,
  015_00001597408271626574_016_00010072657948436043_116_00011310888371459118_016_00018270761171684984_116_00016645623819637518_116_00003338886116348349_115_00001224744871391589_1,
  015_00001597408271626574_016_00009398649092380373_016_00031416733338089897_116_00021053364384717095_116_00016174303384163455_116_00003338886116348349_115_00001224744871391589_0,
  015_00001597408271626574_016_00009398649092380373_116_00010474185596467949_016_00013856828711272502_115_00001570298294868939_116_00003338886116348349_015_00000816496580927726_1,
  016_00016474043052542235_016_00010072657948436043_017_00034708606533848635_117_00048020675986529676_116_00015388769325040015_116_00003338886116348349_015_00000816496580927726_0,
  015_00001597408271626574_016_00008724640236325086_116_00008131417826492676_016_00012953978889824496_115_00001507455570139064_116_00003338886116348349_015_00000816496580927726_0,
  016_00016474043052542235_016_00008724640236325086_016_00002968838988390162_116_00006306817301066312_116_00014760342077741262_116_00003338886116348349_015_00000816496580927726_0,
  016_00016474043052542235_016_00008724640236325086_116_00007238934866502097_016_00011850495774721375_116_00014446128454091887_116_00003338886116348349_015_00000816496580927726_0,
  016_00016474043052542235_016_00008724640236325086_116_00008131417826492676_016_00007436563314308898_116_00014131914830442511_116_00003338886116348349_015_00000816496580927726_0,
  015_00001597408271626574_016_00008050631380269416_116_00003557442656540954_015_00000312294750072398_116_00013817701206793134_016_00029950108064592316_115_00001224744871391589_0,
  015_00001597408271626574_016_00008050631380269416_116_00006234891536512694_016_00005630863671412888_116_00013032167147669695_116_00003338886116348349_015_00000816496580927726_0,
  016_00016474043052542235_016_00008050631380269416_016_00012507250623289485_115_00001272708269802992_116_00012717953524020318_116_00003338886116348349_015_00000816496580927726_0,
  015_00001597408271626574_016_00008050631380269416_116_00009804823376475014_016_00006734346786516008_116_00012403739900370943_116_00003338886116348349_015_00000816496580927726_1,
  015_00001597408271626574_016_00008050631380269416_116_00007517835791499152_016_00010947645953273368_116_00012089526276721567_116_00003338886116348349_015_00000816496580927726_0,
  015_00001597408271626574_016_00008050631380269416_016_00008323736748333642_115_00000811251694396233_115_00001177531265307219_116_00003338886116348349_115_00001224744871391589_0,
  016_00016474043052542235_016_00009398649092380373_117_00016051361815615603_117_00026954180152742907_116_00011303992217598127_116_00003338886116348349_015_00000816496580927726_0,
  016_00016474043052542235_016_00008724640236325086_117_00020513776615568505_117_00004884517850680491_116_00010989778593948751_016_00029950108064592316_115_00001224744871391589_0,
  015_00001597408271626574_016_00009398649092380373_016_00003805541763381331_117_00033976345430671806_115_00001020424453482531_016_00029950108064592316_115_00001224744871391589_0,
  016_00016474043052542235_016_00010072657948436043_116_00008633439491487378_016_00014859995179548064_115_00000941871047570187_116_00003338886116348349_115_00001224744871391589_0,
  016_00016974003388818448_013_00000011420675660547_115_00001359787595643498_016_00011348912540583593_116_00008947390040227806_116_00003338886116348349_015_00000816496580927726_1,
  016_00016974003388818448_013_00000011420675660547_015_00002522513280315525_116_00021053364384717095_115_00000863317641657843_016_00029950108064592316_115_00001224744871391589_0,
  016_00016974003388818448_016_00010746666804491714_117_00023302785865539066_017_00028219975602413067_115_00000784764235745499_116_00003338886116348349_015_00000816496580927726_0,
  016_00017473963725094943_016_00010746666804491714_116_00004115244506535067_016_00008740679723067134_116_00007533428733805614_116_00003338886116348349_015_00000816496580927726_0,
  016_00017473963725094943_016_00010746666804491714_116_00009916383746473837_016_00006533713492860893_116_00007219215110156237_116_00003338886116348349_015_00000816496580927726_1,
  015_00001797392406137144_013_00000011420675660547_018_00040295047841724455_117_00014916182533436123_116_00006905001486506862_116_00003338886116348349_015_00000816496580927726_0,
  015_00001847388439764765_016_00012768693372657955_116_00011534009111456762_016_00012753345596169388_116_00006590787862857486_016_00029950108064592316_115_00001224744871391589_1,
  015_00001847388439764765_016_00013442702228713626_015_00006270941712275961_116_00028677429543611375_116_00005805253803734046_116_00003338886116348349_115_00001224744871391589_1,
  015_00001847388439764765_016_00014116711084769296_116_00005342408576522114_016_00005931813611895553_116_00005333933368259982_116_00003338886116348349_015_00000816496580927726_0,
  015_00001847388439764765_016_00013442702228713626_116_00007629396161497976_016_00008640363076239577_116_00005019719744610606_116_00003338886116348349_115_00001224744871391589_0,
  015_00001847388439764765_016_00013442702228713626_016_00019702894488213536_116_00017542281745752621_117_00045483993091365416_116_00003338886116348349_015_00000816496580927726_0,
  015_00001797392406137144_016_00013442702228713626_016_00005925188793358959_117_00043004843645151863_117_00042341856854871657_116_00003338886116348349_115_00001224744871391589_0,
  015_00001797392406137144_016_00012768693372657955_117_00036690030265397766_015_00001014511277865292_117_00037628652500131016_116_00003338886116348349_015_00000816496580927726_0,
  015_00001797392406137144_016_00013442702228713626_116_00012816953366443222_016_00012953978889824496_117_00034486516263637257_116_00003338886116348349_015_00000816496580927726_1,
  015_00001797392406137144_016_00012768693372657955_018_00029139010841842207_117_00028960513089293993_115_00000313443800271435_016_00029950108064592316_115_00001224744871391589_0,
  016_00017473963725094943_016_00012768693372657955_116_00010864646891463827_016_00009342579604032467_117_00023489039435909095_116_00003338886116348349_015_00000816496580927726_1,
  015_00001797392406137144_016_00012768693372657955_017_00043633436133754433_115_00000399953442403252_117_00020346903199415334_116_00003338886116348349_115_00001224744871391589_0,
  015_00001797392406137144_016_00013442702228713626_116_00005788650056517404_117_00020935181343089515_117_00015633698844674693_116_00003338886116348349_115_00001224744871391589_0,
  015_00001797392406137144_016_00013442702228713626_116_00008242978196491499_015_00001034574607230803_117_00010920494489934053_116_00003338886116348349_015_00000816496580927726_0,
  015_00001797392406137144_016_00013442702228713626_016_00016077182463251805_116_00016739748571132171_117_00007778358253440293_116_00003338886116348349_015_00000816496580927726_0,
  016_00017473963725094943_016_00013442702228713626_016_00012395690253290663_116_00014231832400443263_118_00046362220169465326_116_00003338886116348349_015_00000816496580927726_0,
  016_00017473963725094943_016_00014116711084769296_117_00009357739615686254_117_00035982678367222964_118_00014940857804527726_116_00003338886116348349_015_00000816496580927726_0,
  016_00017473963725094943_016_00014790719940824582_016_00015575160798257104_114_00000164387986306495_018_00016480504560409875_116_00003338886116348349_115_00001224744871391589_0,
  015_00001797392406137144_016_00014790719940824582_116_00009358581896479724_016_00014659361885892956_017_00006361254810781627_016_00029950108064592316_115_00001224744871391589_1,
  015_00001847388439764765_016_00015464728796880252_117_00015493559965621492_117_00010903516660333884_016_00001421659540201603_116_00003338886116348349_015_00000816496580927726_0,
  015_00001847388439764765_016_00016138737652935538_116_00007517835791499152_015_00000663403013968845_016_00001735873163850979_116_00003338886116348349_015_00000816496580927726_0,
  015_00001847388439764765_016_00015464728796880252_116_00008633439491487378_016_00005931813611895553_016_00002050086787500355_116_00003338886116348349_015_00000816496580927726_0,
  016_00018973844733924148_016_00016812746508991208_116_00009525922451477957_015_00001265302894934183_016_00002364300411149731_116_00003338886116348349_015_00000816496580927726_0,
  015_00001847388439764765_016_00016812746508991208_016_00005702068053361313_115_00000399953442403252_016_00002678514034799107_116_00003338886116348349_015_00000816496580927726_0,
  016_00019473805070200358_016_00017486755365046878_016_00005757848238360724_116_00007711250356652106_016_00002992727658448483_116_00003338886116348349_015_00000816496580927726_0,
  016_00019473805070200358_016_00018160764221102164_116_00007685176346497387_016_00010044796131825364_016_00003306941282097859_016_00029950108064592316_115_00001224744871391589_0,
  016_00018973844733924148_016_00017486755365046878_017_00021321362133989932_017_00013172478578279617_016_00004092475341221299_116_00003338886116348349_015_00000816496580927726_0,
  015_00001847388439764765_016_00017486755365046878_116_00007964077271494443_016_00004126113968999543_017_00044066889648706753_116_00003338886116348349_015_00000816496580927726_0,
  015_00001847388439764765_016_00017486755365046878_117_00013820154415639155_117_00045011176581703016_016_00004720902588520051_016_00029950108064592316_115_00001224744871391589_0,
  016_00018973844733924148_016_00018834773077157834_015_00000598096897835837_117_00042001677176876356_016_00005506436647643491_116_00003338886116348349_015_00000816496580927726_0,
  016_00018973844733924148_016_00018834773077157834_116_00005342408576522114_017_00007153479768626296_016_00005820650271292868_116_00003338886116348349_015_00000816496580927726_0,
  015_00001847388439764765_016_00018160764221102164_117_00038921237665374214_016_00008540046429412019_016_00006134863894942243_116_00003338886116348349_115_00001224744871391589_0,
  015_00001847388439764765_016_00018160764221102164_017_00014069938084066472_018_00021376474272484798_016_00006606184330416307_016_00029950108064592316_115_00001224744871391589_0,
  015_00001797392406137144_016_00017486755365046878_117_00022744984015544953_018_00021376474272484798_016_00007391718389539748_016_00029950108064592316_115_00001224744871391589_0,
  015_00001797392406137144_016_00017486755365046878_016_00008937318783327166_116_00012125182817064584_016_00008177252448663187_116_00003338886116348349_015_00000816496580927726_0,
  015_00001797392406137144_016_00016812746508991208_116_00006011770796515049_016_00009041629663549801_016_00008491466072312563_116_00003338886116348349_015_00000816496580927726_0,
  016_00017473963725094943_016_00016138737652935538_115_00000829875838149091_016_00007336246667481341_015_00000880567969596194_116_00003338886116348349_015_00000816496580927726_0,
  016_00017473963725094943_016_00016812746508991208_116_00008856560231485022_016_00006132446905550669_016_00009119893319611315_116_00003338886116348349_015_00000816496580927726_0,
  016_00017473963725094943_016_00016812746508991208_117_00045614859865303564_016_00006433396846033335_016_00009434106943260692_116_00003338886116348349_015_00000816496580927726_0,
  016_00017473963725094943_016_00016812746508991208_116_00006736913201507395_016_00002220097679275974_016_00009748320566910068_116_00003338886116348349_015_00000816496580927726_0]

/-- lr/data.csv 4802-4901 -/
def dataCsv48 : List ℕ := [
  016_00017473963725094943_016_00016812746508991208_116_00010362625226469127_016_00011047962600100927_016_00010062534190559445_116_00003338886116348349_115_00001224744871391589_0,
  016_00017473963725094943_016_00016138737652935538_017_00019647956584007595_116_00007309983769341876_016_00010533854626033508_116_00003338886116348349_015_00000816496580927726_0,
  016_00017473963725094943_016_00016138737652935538_115_00001231493170144852_016_00014258095298582731_016_00010848068249682883_116_00003338886116348349_115_00001224744871391589_0,
  015_00001797392406137144_016_00016812746508991208_016_00009550900818320689_116_00008614100178100111_016_00011319388685156948_116_00003338886116348349_015_00000816496580927726_0,
  015_00001847388439764765_016_00017486755365046878_016_00004586464353373088_116_00001190668312860946_016_00011633602308806323_116_00003338886116348349_015_00000816496580927726_0,
  015_00001797392406137144_016_00017486755365046878_017_00037497615783819194_115_00000640713394789387_014_00000119478159324557_116_00003338886116348349_015_00000816496580927726_0,
  015_00001797392406137144_016_00016812746508991208_116_00009135461156482079_016_00014057462004927617_016_00012262029556105076_016_00029950108064592316_115_00001224744871391589_0,
  016_00017473963725094943_016_00016138737652935538_116_00001995597476557439_117_00034979511898947385_016_00013047563615228517_116_00003338886116348349_015_00000816496580927726_0,
  016_00017473963725094943_016_00015464728796880252_116_00007517835791499152_016_00008640363076239577_016_00013361777238877892_116_00003338886116348349_015_00000816496580927726_0,
  016_00016974003388818448_016_00014790719940824582_016_00006538770828352481_116_00007309983769341876_016_00013675990862527267_116_00003338886116348349_015_00000816496580927726_0,
  016_00016974003388818448_016_00014116711084769296_117_00022187182165550842_117_00005887684318956068_016_00013990204486176645_116_00003338886116348349_115_00001224744871391589_0,
  016_00016974003388818448_016_00013442702228713626_016_00011670547848298316_114_00000116235995829268_016_00014461524921650708_116_00003338886116348349_115_00001224744871391589_0,
  016_00016974003388818448_016_00012768693372657955_117_00004337522965739242_117_00020935181343089515_016_00014932845357124773_116_00003338886116348349_015_00000816496580927726_0,
  016_00016474043052542235_015_00001209468451660267_118_00015485137157686792_017_00006150313300350718_016_00015247058980774149_116_00003338886116348349_115_00001224744871391589_0,
  016_00016974003388818448_015_00001209468451660267_116_00007685176346497387_016_00013054295536652054_016_00015718379416248212_116_00003338886116348349_015_00000816496580927726_1,
  016_00016974003388818448_016_00012768693372657955_117_00002664117415756904_116_00006808400535204094_015_00001603259303989759_016_00029950108064592316_115_00001224744871391589_0,
  016_00016974003388818448_016_00013442702228713626_117_00009915541465680366_117_00040998510708600777_016_00016818127099021027_116_00003338886116348349_015_00000816496580927726_1,
  016_00017473963725094943_016_00014116711084769296_016_00007542814158341884_116_00009216000059065448_116_00016959837443286896_116_00003338886116348349_015_00000816496580927726_0,
  015_00001797392406137144_016_00014116711084769296_015_00002388640836316938_116_00019147348094993524_116_00016645623819637518_116_00003338886116348349_115_00001224744871391589_0,
  015_00001797392406137144_016_00014790719940824582_016_00008769978228328932_116_00009316316705893005_116_00016174303384163455_116_00003338886116348349_015_00000816496580927726_0,
  015_00001797392406137144_016_00014116711084769296_017_00049211454633695556_116_00007510617062996991_116_00015860089760514078_116_00003338886116348349_115_00001224744871391589_0,
  016_00017473963725094943_016_00012768693372657955_116_00007462055606499741_016_00005630863671412888_116_00015388769325040015_116_00003338886116348349_015_00000816496580927726_0,
  016_00017473963725094943_016_00012768693372657955_017_00014627739934060582_117_00010903516660333884_115_00001507455570139064_116_00003338886116348349_015_00000816496580927726_0,
  016_00017473963725094943_016_00012768693372657955_117_00025533993265515514_117_00012909849596884967_116_00014760342077741262_116_00003338886116348349_015_00000816496580927726_0,
  016_00016974003388818448_015_00001209468451660267_117_00022187182165550842_016_00005028963790447548_116_00014446128454091887_116_00003338886116348349_015_00000816496580927726_0,
  016_00016474043052542235_015_00001209468451660267_016_00008546857488331286_116_00009416633352720559_116_00014131914830442511_116_00003338886116348349_015_00000816496580927726_0,
  016_00016974003388818448_015_00001209468451660267_015_00004067624404799217_116_00024263497083198895_116_00013817701206793134_116_00003338886116348349_015_00000816496580927726_0,
  016_00016974003388818448_015_00001209468451660267_115_00000562130950151917_016_00018972977699477873_116_00013503487583143758_116_00003338886116348349_015_00000816496580927726_0,
  016_00017473963725094943_016_00012768693372657955_117_00013262352565645041_117_00007894017255507152_116_00013189273959494383_116_00003338886116348349_015_00000816496580927726_0,
  016_00016974003388818448_016_00012768693372657955_116_00002664959696550374_117_00017925681938262783_116_00012875060335845006_116_00003338886116348349_015_00000816496580927726_0,
  016_00017473963725094943_016_00013442702228713626_016_00012116789328293607_116_00010319483174168569_115_00001256084671219563_116_00003338886116348349_015_00000816496580927726_0,
  016_00017473963725094943_016_00013442702228713626_115_00000963748282147678_016_00014559045239065398_116_00012246633088546255_116_00003338886116348349_015_00000816496580927726_1,
  016_00017473963725094943_016_00013442702228713626_116_00005732869871517993_016_00005129280437275106_116_00011932419464896877_116_00003338886116348349_015_00000816496580927726_0,
  016_00016974003388818448_016_00012768693372657955_116_00009023900786483257_016_00001618197798310635_116_00011618205841247502_116_00003338886116348349_015_00000816496580927726_1,
  016_00016974003388818448_016_00012768693372657955_117_00016051361815615603_016_00002220097679275974_116_00011303992217598127_116_00003338886116348349_115_00001224744871391589_0,
  016_00016974003388818448_016_00012768693372657955_116_00006681133016507984_016_00010947645953273368_116_00010832671782124061_116_00003338886116348349_115_00001224744871391589_0,
  016_00016474043052542235_015_00001209468451660267_116_00012482272256446754_015_00002208279375113212_116_00010361351346649998_116_00003338886116348349_015_00000816496580927726_1,
  016_00016474043052542235_015_00001209468451660267_016_00014905798578264169_116_00012325816110719694_116_00010047137723000623_016_00029950108064592316_115_00001224744871391589_0,
  016_00016474043052542235_015_00001209468451660267_016_00006148309533356603_116_00010620433114651238_116_00009261603663877183_016_00029950108064592316_115_00001224744871391589_0,
  016_00016974003388818448_016_00012768693372657955_116_00007629396161497976_016_00010044796131825364_116_00008476069604753742_016_00029950108064592316_115_00001224744871391589_0,
  016_00016974003388818448_016_00012768693372657955_116_00013430535401436745_015_00002398881004085569_116_00007690535545630302_116_00003338886116348349_015_00000816496580927726_1,
  016_00016474043052542235_015_00001209468451660267_116_00005453968946520936_015_00000492864714361999_116_00007376321921980926_116_00003338886116348349_115_00001224744871391589_0,
  016_00016474043052542235_015_00001209468451660267_116_00002776520066549197_016_00009442896250860024_116_00006905001486506862_116_00003338886116348349_115_00001224744871391589_0,
  016_00016474043052542235_015_00001209468451660267_016_00016913885238242974_116_00015535948809201496_116_00006433681051032798_116_00003338886116348349_015_00000816496580927726_0,
  016_00016974003388818448_015_00001209468451660267_116_00012426492071447344_016_00010947645953273368_116_00006119467427383422_116_00003338886116348349_115_00001224744871391589_1,
  016_00016474043052542235_015_00001209468451660267_017_00024668173233954607_116_00006708083888376544_116_00005648146991909357_116_00003338886116348349_115_00001224744871391589_0,
  016_00016474043052542235_015_00001209468451660267_017_00005145108484160671_116_00006507450594721428_116_00005176826556435293_116_00003338886116348349_115_00001224744871391589_0,
  016_00016974003388818448_016_00012768693372657955_116_00005844430241516816_016_00004627697203137324_115_00000470550612096123_116_00003338886116348349_015_00000816496580927726_0,
  016_00017473963725094943_016_00013442702228713626_116_00007908297086495032_016_00012953978889824496_116_00004391292497311854_016_00029950108064592316_115_00001224744871391589_0,
  016_00017473963725094943_016_00013442702228713626_116_00003557442656540954_016_00002922314207068864_117_00036057584381884134_116_00003338886116348349_115_00001224744871391589_0,
  016_00017473963725094943_016_00013442702228713626_116_00005453968946520936_015_00001686632811609919_115_00000313443800271435_116_00003338886116348349_015_00000816496580927726_0,
  015_00001847388439764765_016_00014116711084769296_116_00009804823376475014_016_00011850495774721375_117_00028202243790649734_116_00003338886116348349_015_00000816496580927726_1,
  015_00001847388439764765_016_00014790719940824582_016_00004474903983374266_116_00005103017539135641_117_00025060107554155975_116_00003338886116348349_015_00000816496580927726_0,
  015_00001847388439764765_016_00014790719940824582_116_00002888080436548019_116_00006005867360583647_117_00021917971317662216_116_00003338886116348349_015_00000816496580927726_0,
  015_00001847388439764765_016_00014790719940824582_016_00001630114548404292_116_00006206500654238761_117_00018775835081168454_116_00003338886116348349_015_00000816496580927726_0,
  015_00001847388439764765_016_00015464728796880252_116_00009135461156482079_016_00006232763552378227_117_00015633698844674693_116_00003338886116348349_015_00000816496580927726_0,
  015_00001797392406137144_016_00015464728796880252_016_00008881538598327754_116_00008714416824927665_117_00012491562608180934_116_00003338886116348349_115_00001224744871391589_0,
  015_00001847388439764765_016_00015464728796880252_017_00037497615783819194_116_00002595101368446733_117_00007778358253440293_116_00003338886116348349_015_00000816496580927726_0,
  015_00001847388439764765_016_00015464728796880252_115_00001058574596646677_016_00011047962600100927_118_00046362220169465326_116_00003338886116348349_015_00000816496580927726_0,
  015_00001847388439764765_016_00016138737652935538_118_00021063155657627917_117_00013913016065160544_118_00014940857804527726_116_00003338886116348349_015_00000816496580927726_0,
  015_00001797392406137144_016_00016138737652935538_117_00019398172915580278_016_00009543212897687582_018_00016480504560409875_116_00003338886116348349_115_00001224744871391589_0,
  016_00017473963725094943_016_00015464728796880252_016_00022715024478181745_115_00001894671480133841_017_00006361254810781627_116_00003338886116348349_015_00000816496580927726_0,
  016_00017473963725094943_016_00014116711084769296_115_00001186869022145323_016_00015762845000996077_017_00009503391047275388_116_00003338886116348349_015_00000816496580927726_0,
  015_00001797392406137144_016_00015464728796880252_016_00020985838743199996_116_00017742915039407734_017_00012645527283769148_116_00003338886116348349_115_00001224744871391589_0,
  015_00001797392406137144_016_00015464728796880252_116_00004896167096526824_016_00003423897441206646_016_00001735873163850979_116_00003338886116348349_015_00000816496580927726_0,
  016_00017473963725094943_016_00015464728796880252_016_00004753804908371322_116_00005203334185963199_016_00002050086787500355_116_00003338886116348349_115_00001224744871391589_0,
  015_00001797392406137144_016_00016138737652935538_015_00001351129395327889_116_00011322649642444131_016_00002521407222974419_116_00003338886116348349_015_00000816496580927726_0,
  015_00001797392406137144_016_00016812746508991208_116_00010808866706464417_016_00014157778651755175_016_00002835620846623795_116_00003338886116348349_015_00000816496580927726_0,
  015_00001797392406137144_016_00016138737652935538_116_00006736913201507395_016_00006032130258723112_016_00003149834470273171_116_00003338886116348349_015_00000816496580927726_0,
  015_00001847388439764765_016_00016138737652935538_015_00000999714229831598_115_00001352961587265037_016_00003464048093922547_116_00003338886116348349_015_00000816496580927726_0,
  015_00001847388439764765_016_00016138737652935538_014_00000051442662033672_116_00011523282936099244_016_00003778261717571923_116_00003338886116348349_115_00001224744871391589_0,
  015_00001847388439764765_016_00016138737652935538_117_00014377956265633265_018_00011344809589729025_016_00004249582153045987_116_00003338886116348349_015_00000816496580927726_0,
  015_00001847388439764765_016_00016138737652935538_116_00012426492071447344_016_00019374244286788098_016_00004563795776695363_116_00003338886116348349_015_00000816496580927726_0,
  015_00001847388439764765_016_00016138737652935538_117_00036132228415403655_116_00001190668312860946_017_00048780094003447394_116_00003338886116348349_115_00001224744871391589_0,
  016_00018973844733924148_016_00016812746508991208_016_00004474903983374266_116_00009115683412237894_016_00005349329835818804_116_00003338886116348349_015_00000816496580927726_0,
  015_00001847388439764765_016_00016138737652935538_016_00009104659338325399_116_00008814733471755224_016_00005663543459468179_116_00003338886116348349_015_00000816496580927726_0,
  015_00001847388439764765_016_00016138737652935538_019_00068269368420777075_116_00002595101368446733_016_00005977757083117555_116_00003338886116348349_115_00001224744871391589_0,
  015_00001847388439764765_016_00016138737652935538_018_00040295047841724455_116_00006306817301066312_016_00006449077518591619_116_00003338886116348349_115_00001224744871391589_0,
  015_00001847388439764765_016_00016138737652935538_116_00010641526151466183_016_00011047962600100927_016_00006920397954065683_116_00003338886116348349_015_00000816496580927726_0,
  015_00001847388439764765_016_00016812746508991208_117_00010473343315674478_117_00044008010113427437_015_00000723461157771506_016_00029950108064592316_115_00001224744871391589_0,
  016_00018973844733924148_016_00017486755365046878_117_00006568730365715691_016_00001919147738793301_016_00008020145636838499_116_00003338886116348349_115_00001224744871391589_0,
  016_00018973844733924148_016_00017486755365046878_115_00000740627542150033_016_00007135613373826232_016_00008491466072312563_116_00003338886116348349_115_00001224744871391589_0,
  015_00001847388439764765_016_00016812746508991208_117_00042825850615333005_016_00006232763552378227_016_00008962786507786628_116_00003338886116348349_015_00000816496580927726_0,
  016_00018973844733924148_016_00017486755365046878_016_00008100616008335997_116_00010720749761478792_016_00009277000131436004_116_00003338886116348349_115_00001224744871391589_0,
  016_00018973844733924148_016_00016812746508991208_015_00000648299064335307_116_00012024866170237025_016_00009748320566910068_016_00029950108064592316_115_00001224744871391589_0,
  016_00018973844733924148_016_00016812746508991208_016_00011670547848298316_116_00014934048928236157_016_00010533854626033508_016_00029950108064592316_115_00001224744871391589_0,
  016_00018973844733924148_016_00016812746508991208_116_00009302801711480313_016_00005731180318240445_016_00011319388685156948_116_00003338886116348349_015_00000816496580927726_0,
  015_00001847388439764765_016_00016812746508991208_117_00032227615465444864_116_00006708083888376544_016_00011633602308806323_116_00003338886116348349_015_00000816496580927726_0,
  015_00001847388439764765_016_00016138737652935538_116_00001493575811562738_117_00007894017255507152_014_00000119478159324557_116_00003338886116348349_015_00000816496580927726_0,
  015_00001847388439764765_016_00016812746508991208_016_00005200046388366611_117_00033976345430671806_016_00012262029556105076_116_00003338886116348349_015_00000816496580927726_0,
  015_00001847388439764765_016_00016138737652935538_117_00007684334065703917_016_00003925480675344427_016_00012576243179754452_116_00003338886116348349_015_00000816496580927726_0,
  015_00001847388439764765_016_00015464728796880252_016_00012116789328293607_116_00013629932519477927_016_00012890456803403827_116_00003338886116348349_115_00001224744871391589_0,
  015_00001847388439764765_016_00015464728796880252_016_00021376300038195875_116_00016940381864787284_016_00013361777238877892_116_00003338886116348349_015_00000816496580927726_0,
  016_00018973844733924148_016_00016812746508991208_116_00005063507651525058_016_00004326747262654651_016_00013675990862527267_116_00003338886116348349_115_00001224744871391589_0,
  016_00018973844733924148_016_00016812746508991208_116_00005119287836524469_015_00000663403013968845_016_00014147311298001333_016_00029950108064592316_115_00001224744871391589_0,
  016_00018973844733924148_016_00016138737652935538_016_00003247739913387218_116_00006607767241548985_016_00014932845357124773_116_00003338886116348349_115_00001224744871391589_0,
  015_00001847388439764765_016_00016138737652935538_016_00005757848238360724_116_00007711250356652106_016_00015404165792598836_116_00003338886116348349_115_00001224744871391589_0,
  016_00018973844733924148_016_00016812746508991208_117_00007684334065703917_116_00001993201487481394_014_00000158754862280729_016_00029950108064592316_115_00001224744871391589_0,
  015_00001797392406137144_016_00016138737652935538_117_00043941454315321227_015_00001375651206444495_015_00001666102028719634_016_00029950108064592316_115_00001224744871391589_0,
  015_00001797392406137144_016_00015464728796880252_016_00035098225548051043_116_00022357480793475326_015_00001744655434631978_116_00003338886116348349_015_00000816496580927726_0]

/-- lr/data.csv 4902-5001 -/
def dataCsv49 : List ℕ := [
  015_00001797392406137144_016_00016138737652935538_116_00008410318751489733_016_00001919147738793301_016_00017760767969969156_116_00003338886116348349_015_00000816496580927726_0,
  015_00001797392406137144_016_00015464728796880252_016_00005088486018367789_116_00007610933709824549_016_00018074981593618533_116_00003338886116348349_115_00001224744871391589_0,
  015_00001797392406137144_016_00015464728796880252_016_00004307563428376032_116_00010720749761478792_016_00018546302029092596_116_00003338886116348349_015_00000816496580927726_0,
  015_00001797392406137144_016_00016138737652935538_015_00003866815738801336_116_00023260330614923332_116_00016959837443286896_116_00003338886116348349_015_00000816496580927726_0,
  015_00001797392406137144_016_00016138737652935538_116_00003278541731543898_015_00001074701265961826_116_00016645623819637518_016_00029950108064592316_115_00001224744871391589_0,
  015_00001797392406137144_016_00016138737652935538_116_00009804823376475014_015_00001315461218347961_116_00015860089760514078_116_00003338886116348349_015_00000816496580927726_0,
  015_00001797392406137144_016_00016138737652935538_116_00005732869871517993_016_00005630863671412888_116_00015545876136864702_016_00029950108064592316_115_00001224744871391589_0,
  015_00001797392406137144_016_00016812746508991208_016_00003805541763381331_116_00006306817301066312_116_00014760342077741262_116_00003338886116348349_115_00001224744871391589_0,
  015_00001797392406137144_016_00016812746508991208_117_00044499256165315343_016_00008239096488929353_114_00000142890216422672_116_00003338886116348349_115_00001224744871391589_0,
  016_00017473963725094943_016_00016138737652935538_117_00032227615465444864_016_00003724847381689319_116_00013817701206793134_116_00003338886116348349_015_00000816496580927726_0,
  016_00017473963725094943_016_00016138737652935538_017_00037497615783819194_116_00008313150237617443_116_00013503487583143758_116_00003338886116348349_115_00001224744871391589_0,
  016_00017473963725094943_016_00015464728796880252_016_00007933275453337764_115_00001021916652734101_116_00013032167147669695_116_00003338886116348349_015_00000816496580927726_0,
  016_00017473963725094943_016_00014790719940824582_117_00015493559965621492_117_00028960513089293993_116_00012717953524020318_116_00003338886116348349_015_00000816496580927726_0,
  016_00017473963725094943_016_00015464728796880252_017_00030246191733895733_117_00048020675986529676_116_00012403739900370943_116_00003338886116348349_115_00001224744871391589_0,
  016_00017473963725094943_016_00015464728796880252_117_00003779721115745129_017_00017185144451381926_116_00011932419464896877_116_00003338886116348349_115_00001224744871391589_0,
  016_00017473963725094943_016_00015464728796880252_116_00008521879121488555_016_00009041629663549801_116_00011461099029422814_016_00029950108064592316_115_00001224744871391589_0,
  016_00016974003388818448_016_00015464728796880252_016_00012841931733285954_116_00012125182817064584_116_00010675564970299374_016_00029950108064592316_115_00001224744871391589_0,
  016_00016974003388818448_016_00014790719940824582_017_00012396532534084133_117_00017925681938262783_116_00009890030911175934_116_00003338886116348349_115_00001224744871391589_0,
  016_00016474043052542235_016_00014790719940824582_117_00045614859865303564_017_00007153479768626296_115_00000941871047570187_116_00003338886116348349_015_00000816496580927726_0,
  016_00016474043052542235_016_00014790719940824582_117_00018282569215592054_019_00013131449069732513_116_00009104496852052494_116_00003338886116348349_015_00000816496580927726_0,
  016_00016974003388818448_016_00014790719940824582_116_00011255108186459706_016_00029506225616371293_116_00008790283228403118_116_00003338886116348349_015_00000816496580927726_1,
  016_00016974003388818448_016_00015464728796880252_116_00014044117436430268_016_00014859995179548064_116_00008476069604753742_116_00003338886116348349_015_00000816496580927726_0,
  016_00016974003388818448_016_00014790719940824582_017_00042517832433766206_117_00043004843645151863_116_00008161855981104366_116_00003338886116348349_115_00001224744871391589_0,
  016_00016974003388818448_016_00014790719940824582_015_00002416530928816644_115_00001653911527747706_116_00007690535545630302_116_00003338886116348349_115_00001224744871391589_0,
  016_00016974003388818448_016_00015464728796880252_117_00009357739615686254_017_00021197810324484165_116_00007219215110156237_016_00029950108064592316_115_00001224744871391589_0,
  016_00016974003388818448_016_00015464728796880252_016_00007877495268338351_116_00009416633352720559_116_00006433681051032798_116_00003338886116348349_015_00000816496580927726_0,
  016_00016974003388818448_016_00015464728796880252_117_00020513776615568505_115_00000399953442403252_116_00006119467427383422_116_00003338886116348349_015_00000816496580927726_0,
  016_00017473963725094943_016_00015464728796880252_018_00023560992341901083_116_00006708083888376544_116_00005805253803734046_116_00003338886116348349_115_00001224744871391589_0,
  016_00017473963725094943_016_00015464728796880252_016_00002522597508394872_117_00048020675986529676_116_00005333933368259982_116_00003338886116348349_015_00000816496580927726_0,
  016_00017473963725094943_016_00016138737652935538_116_00011087767631461474_017_00045273805563097663_116_00005019719744610606_116_00003338886116348349_015_00000816496580927726_0,
  016_00016974003388818448_016_00015464728796880252_016_00006929232123348361_116_00006106184007411204_115_00000470550612096123_116_00003338886116348349_015_00000816496580927726_0,
  016_00016474043052542235_016_00014116711084769296_016_00008602637673330699_116_00010018533233685898_116_00004391292497311854_116_00003338886116348349_115_00001224744871391589_0,
  016_00016474043052542235_016_00014116711084769296_116_00006736913201507395_016_00004728013849964882_115_00000391997206183779_116_00003338886116348349_015_00000816496580927726_0,
  016_00016974003388818448_016_00014790719940824582_017_00008491919584125346_117_00031970012494120725_117_00036057584381884134_016_00029950108064592316_115_00001224744871391589_0,
  016_00016974003388818448_016_00014790719940824582_016_00002299476768397227_117_00042001677176876356_117_00028202243790649734_116_00003338886116348349_015_00000816496580927726_0,
  016_00016974003388818448_016_00015464728796880252_116_00003334321916543309_017_00028219975602413067_117_00025060107554155975_116_00003338886116348349_015_00000816496580927726_0,
  016_00017473963725094943_016_00016138737652935538_116_00014211457991428502_015_00003071002537830196_117_00021917971317662216_116_00003338886116348349_015_00000816496580927726_1,
  016_00016974003388818448_016_00015464728796880252_019_00068269368420777075_117_00012909849596884967_117_00018775835081168454_116_00003338886116348349_015_00000816496580927726_0,
  016_00017473963725094943_016_00016138737652935538_017_00037497615783819194_115_00000991821658685834_117_00015633698844674693_116_00003338886116348349_115_00001224744871391589_0,
  015_00001797392406137144_016_00016812746508991208_115_00001409989762142968_016_00022484060338442347_117_00010920494489934053_116_00003338886116348349_015_00000816496580927726_0,
  015_00001797392406137144_016_00017486755365046878_117_00020513776615568505_117_00004884517850680491_117_00007778358253440293_116_00003338886116348349_015_00000816496580927726_0,
  015_00001797392406137144_016_00018160764221102164_016_00008937318783327166_116_00008513783531272554_118_00046362220169465326_116_00003338886116348349_115_00001224744871391589_0,
  016_00017473963725094943_016_00017486755365046878_017_00035266408383842746_116_00005805234066928531_019_00007698233779410749_116_00003338886116348349_015_00000816496580927726_0,
  015_00001797392406137144_016_00017486755365046878_116_00005732869871517993_017_00020194643856208588_017_00003219118574287868_016_00029950108064592316_115_00001224744871391589_0,
  015_00001797392406137144_016_00018160764221102164_016_00012618810993288307_116_00012526449404374806_017_00011074459165522269_116_00003338886116348349_115_00001224744871391589_0,
  015_00001797392406137144_016_00018160764221102164_116_00006736913201507395_016_00004126113968999543_016_00001578766352026291_116_00003338886116348349_015_00000816496580927726_0,
  015_00001847388439764765_016_00018160764221102164_016_00007263913233344829_116_00008313150237617443_017_00018929799756756668_116_00003338886116348349_115_00001224744871391589_0,
  015_00001847388439764765_016_00018160764221102164_116_00008019857456493854_016_00013957145358100058_016_00002364300411149731_116_00003338886116348349_015_00000816496580927726_0,
  016_00018973844733924148_016_00018160764221102164_116_00002162938031555673_017_00017185144451381926_016_00002678514034799107_116_00003338886116348349_115_00001224744871391589_0,
  016_00018973844733924148_016_00018160764221102164_017_00009049721434119458_116_00006607767241548985_016_00003149834470273171_116_00003338886116348349_115_00001224744871391589_0,
  016_00018973844733924148_016_00018160764221102164_015_00002120895948319764_116_00019849564622786418_017_00036211549057472353_116_00003338886116348349_115_00001224744871391589_0,
  016_00018973844733924148_016_00018160764221102164_016_00003191959728387807_117_00033976345430671806_016_00004092475341221299_116_00003338886116348349_015_00000816496580927726_0,
  016_00018973844733924148_016_00018160764221102164_115_00000919124134148149_016_00013656195417617392_017_00044066889648706753_116_00003338886116348349_115_00001224744871391589_0,
  015_00001847388439764765_016_00016812746508991208_015_00000731969341834424_116_00013930882459960594_017_00048780094003447394_116_00003338886116348349_015_00000816496580927726_0,
  015_00001847388439764765_016_00017486755365046878_016_00009104659338325399_116_00010921383055133904_016_00005192223023994115_116_00003338886116348349_015_00000816496580927726_0,
  016_00018973844733924148_016_00016812746508991208_115_00000963748282147678_016_00005129280437275106_016_00005506436647643491_116_00003338886116348349_115_00001224744871391589_0,
  016_00018973844733924148_016_00016812746508991208_015_00004491553810794742_116_00024865396964164233_016_00005977757083117555_116_00003338886116348349_115_00001224744871391589_0,
  016_00018973844733924148_016_00017486755365046878_016_00012786151548286542_116_00016137848690166836_016_00006449077518591619_116_00003338886116348349_115_00001224744871391589_0,
  016_00018973844733924148_016_00016812746508991208_117_00008799937765692141_016_00007035296726998674_016_00006920397954065683_116_00003338886116348349_015_00000816496580927726_0,
  016_00018973844733924148_016_00017486755365046878_015_00001094540544330597_116_00014131515753615709_015_00000723461157771506_116_00003338886116348349_015_00000816496580927726_0,
  016_00019473805070200358_016_00018160764221102164_116_00011143547816460884_016_00022383743691614786_016_00007548825201364435_116_00003338886116348349_015_00000816496580927726_0,
  016_00019473805070200358_016_00018160764221102164_016_00014571117468267702_116_00015736582102856609_016_00007863038825013812_116_00003338886116348349_015_00000816496580927726_0,
  016_00019973765406476855_016_00018160764221102164_116_00004617266171529768_016_00011248595893756042_016_00008177252448663187_116_00003338886116348349_115_00001224744871391589_0,
  016_00019473805070200358_016_00018160764221102164_016_00013957535433274177_116_00015636265456029053_016_00008648572884137251_116_00003338886116348349_015_00000816496580927726_0,
  016_00019473805070200358_016_00018160764221102164_017_00035266408383842746_116_00006106184007411204_016_00008962786507786628_116_00003338886116348349_015_00000816496580927726_0,
  016_00018973844733924148_016_00018160764221102164_116_00009749043191475603_016_00009342579604032467_016_00009277000131436004_116_00003338886116348349_115_00001224744871391589_0,
  016_00018973844733924148_016_00017486755365046878_016_00014180656173271824_116_00011924549523409467_016_00009748320566910068_116_00003338886116348349_015_00000816496580927726_0,
  016_00019473805070200358_016_00017486755365046878_116_00006290671721512106_016_00013455562123962277_016_00010062534190559445_116_00003338886116348349_015_00000816496580927726_0,
  016_00019473805070200358_016_00018160764221102164_117_00029996408065468416_016_00003323580794379088_015_00001037674781420882_116_00003338886116348349_115_00001224744871391589_0,
  016_00019473805070200358_016_00018160764221102164_118_00060109285157215794_115_00000159193490017117_016_00010848068249682883_116_00003338886116348349_015_00000816496580927726_0,
  016_00018973844733924148_016_00017486755365046878_017_00014627739934060582_115_00000399953442403252_015_00001116228187333226_116_00003338886116348349_015_00000816496580927726_0,
  016_00018973844733924148_016_00018160764221102164_015_00001669076449824533_116_00012225499463892138_016_00011476495496981636_116_00003338886116348349_015_00000816496580927726_0,
  016_00018973844733924148_016_00017486755365046878_016_00015184699503261225_116_00015134682221891271_015_00001179070912063101_016_00029950108064592316_115_00001224744871391589_0,
  016_00018973844733924148_016_00018160764221102164_117_00043383652465327116_117_00017925681938262783_016_00012576243179754452_116_00003338886116348349_015_00000816496580927726_0,
  016_00018973844733924148_016_00018160764221102164_115_00000696003394150504_017_00017185144451381926_016_00012890456803403827_116_00003338886116348349_015_00000816496580927726_0,
  015_00001847388439764765_016_00018160764221102164_116_00006290671721512106_016_00005530547024585329_016_00013204670427053204_116_00003338886116348349_015_00000816496580927726_0,
  015_00001847388439764765_016_00018160764221102164_116_00010027944116472658_015_00001686632811609919_015_00001351888405070258_116_00003338886116348349_015_00000816496580927726_1,
  015_00001847388439764765_016_00018160764221102164_019_00068269368420777075_016_00004828330496792433_016_00013833097674351955_116_00003338886116348349_015_00000816496580927726_0,
  015_00001797392406137144_016_00018160764221102164_116_00006123331166513871_016_00007737513254791571_016_00014147311298001333_116_00003338886116348349_015_00000816496580927726_0,
  015_00001847388439764765_016_00018160764221102164_016_00004084442688378387_116_00003698584483549854_016_00014461524921650708_116_00003338886116348349_115_00001224744871391589_0,
  015_00001847388439764765_016_00018834773077157834_016_00008156396193335408_116_00008212833590789884_016_00014932845357124773_116_00003338886116348349_115_00001224744871391589_0,
  015_00001847388439764765_016_00018834773077157834_017_00010723126984101795_117_00022941514279640599_016_00015404165792598836_116_00003338886116348349_115_00001224744871391589_0,
  015_00001847388439764765_015_00002018279078926879_016_00015184699503261225_116_00015736582102856609_014_00000158754862280729_116_00003338886116348349_015_00000816496580927726_0,
  016_00018973844733924148_015_00002085679964532446_016_00018419950233227078_116_00014231832400443263_016_00016189699851722277_116_00003338886116348349_015_00000816496580927726_0,
  016_00018973844733924148_015_00002085679964532446_116_00015773303171412019_016_00018772344405822765_016_00016503913475371652_116_00003338886116348349_015_00000816496580927726_1,
  016_00018973844733924148_015_00002018279078926879_016_00013957535433274177_115_00001653911527747706_016_00016818127099021027_116_00003338886116348349_115_00001224744871391589_0,
  015_00001847388439764765_015_00001950878193321312_117_00020513776615568505_017_00005147146832075141_116_00016959837443286896_116_00003338886116348349_015_00000816496580927726_0,
  015_00001847388439764765_015_00002018279078926879_116_00013151634476439689_015_00001445872859223784_116_00016645623819637518_116_00003338886116348349_115_00001224744871391589_0,
  016_00018973844733924148_015_00002085679964532446_015_00005344990641285734_115_00002707236319437047_116_00016174303384163455_116_00003338886116348349_015_00000816496580927726_1,
  016_00019473805070200358_015_00002153080850137975_117_00022187182165550842_116_00002595101368446733_116_00015860089760514078_116_00003338886116348349_015_00000816496580927726_0,
  016_00019473805070200358_015_00002153080850137975_116_00008131417826492676_016_00006533713492860893_116_00015545876136864702_116_00003338886116348349_015_00000816496580927726_0,
  016_00019473805070200358_015_00002018279078926879_116_00003557442656540954_017_00010162979173452956_116_00015231662513215327_116_00003338886116348349_115_00001224744871391589_0,
  016_00018973844733924148_015_00001950878193321312_017_00019090154734013484_116_00005403967479618307_116_00014760342077741262_116_00003338886116348349_015_00000816496580927726_0,
  016_00018973844733924148_015_00001950878193321312_016_00015630940983256516_116_00016338481983821946_116_00014446128454091887_116_00003338886116348349_015_00000816496580927726_0,
  016_00017473963725094943_016_00017486755365046878_016_00005757848238360724_116_00010620433114651238_116_00014131914830442511_116_00003338886116348349_115_00001224744871391589_0,
  015_00001797392406137144_016_00017486755365046878_019_00068269368420777075_118_00018750184458538297_116_00013660594394968446_116_00003338886116348349_015_00000816496580927726_0,
  015_00001797392406137144_016_00018834773077157834_116_00007740956531496798_016_00003223264147551537_115_00001334638077131907_116_00003338886116348349_115_00001224744871391589_0,
  015_00001797392406137144_016_00018834773077157834_016_00062486296382761966_116_00028677429543611375_116_00012875060335845006_116_00003338886116348349_115_00001224744871391589_1,
  015_00001797392406137144_016_00018834773077157834_016_00015965622093252982_116_00014833732281408603_116_00012403739900370943_116_00003338886116348349_115_00001224744871391589_0,
  015_00001847388439764765_015_00001950878193321312_117_00003779721115745129_017_00013172478578279617_116_00011932419464896877_116_00003338886116348349_115_00001224744871391589_0]

/-- lr/data.csv 5002-5101 -/
def dataCsv50 : List ℕ := [
  015_00001847388439764765_016_00018834773077157834_015_00001635608338824886_114_00000164387986306495_116_00011461099029422814_116_00003338886116348349_015_00000816496580927726_0,
  015_00001797392406137144_016_00018160764221102164_016_00035432906658047507_115_00002245779744030288_115_00001114688540577344_116_00003338886116348349_115_00001224744871391589_0,
  015_00001847388439764765_016_00018834773077157834_017_00049211454633695556_116_00008313150237617443_116_00010675564970299374_116_00003338886116348349_015_00000816496580927726_0,
  015_00001847388439764765_016_00018834773077157834_116_00005677089686518582_016_00011348912540583593_116_00010361351346649998_116_00003338886116348349_015_00000816496580927726_0,
  015_00001847388439764765_016_00018834773077157834_116_00009749043191475603_016_00006333080199205777_116_00010047137723000623_116_00003338886116348349_015_00000816496580927726_0,
  015_00001847388439764765_015_00001950878193321312_116_00005286628391522703_016_00012753345596169388_116_00009732924099351247_116_00003338886116348349_115_00001224744871391589_0,
  015_00001847388439764765_016_00018834773077157834_115_00000963748282147678_016_00007336246667481341_116_00009261603663877183_116_00003338886116348349_115_00001224744871391589_0,
  016_00018973844733924148_015_00001950878193321312_116_00005398188761521525_016_00008339413135756903_116_00008790283228403118_116_00003338886116348349_015_00000816496580927726_0,
  015_00001847388439764765_016_00018834773077157834_116_00002832300251548608_017_00028219975602413067_116_00008476069604753742_016_00029950108064592316_115_00001224744871391589_0,
  015_00001847388439764765_016_00018834773077157834_117_00008799937765692141_017_00007153479768626296_116_00007690535545630302_116_00003338886116348349_015_00000816496580927726_0,
  015_00001847388439764765_016_00018834773077157834_018_00023560992341901083_117_00016922515469987276_116_00007376321921980926_116_00003338886116348349_015_00000816496580927726_0,
  015_00001847388439764765_016_00018834773077157834_016_00005311606758365435_116_00006206500654238761_115_00000706210829833155_116_00003338886116348349_115_00001224744871391589_0,
  016_00018973844733924148_015_00001950878193321312_015_00001540782024325887_116_00012225499463892138_116_00006590787862857486_116_00003338886116348349_115_00001224744871391589_0,
  016_00018973844733924148_015_00001950878193321312_017_00030803993583889844_117_00048020675986529676_116_00006119467427383422_116_00003338886116348349_115_00001224744871391589_0,
  016_00018973844733924148_015_00002018279078926879_116_00004840386911527413_117_00013913016065160544_116_00005648146991909357_116_00003338886116348349_015_00000816496580927726_0,
  016_00019473805070200358_015_00002018279078926879_015_00001228412988329184_114_00000116235995829268_116_00005333933368259982_116_00003338886116348349_015_00000816496580927726_0,
  016_00019473805070200358_015_00002018279078926879_116_00007294715051501508_016_00007536879961136456_116_00005019719744610606_116_00003338886116348349_015_00000816496580927726_0,
  016_00019473805070200358_015_00002018279078926879_117_00031112011765456643_016_00005028963790447548_115_00000470550612096123_116_00003338886116348349_015_00000816496580927726_0,
  016_00019473805070200358_015_00002018279078926879_016_00004530684168373677_117_00033976345430671806_116_00004391292497311854_116_00003338886116348349_115_00001224744871391589_0,
  016_00019973765406476855_015_00002085679964532446_116_00004059464321535655_117_00004884517850680491_115_00000391997206183779_116_00003338886116348349_115_00001224744871391589_0,
  015_00002047372574275335_015_00002085679964532446_016_00000960752328411357_116_00003698584483549854_117_00034486516263637257_116_00003338886116348349_015_00000816496580927726_0,
  016_00019973765406476855_015_00002018279078926879_115_00001052996578146736_016_00021179943929684115_115_00000313443800271435_116_00003338886116348349_015_00000816496580927726_0,
  016_00019973765406476855_015_00002085679964532446_116_00007517835791499152_016_00007135613373826232_117_00028202243790649734_116_00003338886116348349_015_00000816496580927726_0,
  016_00019973765406476855_015_00002018279078926879_017_00020205758434001708_116_00005504284126445864_117_00025060107554155975_116_00003338886116348349_115_00001224744871391589_0,
  016_00019473805070200358_015_00002085679964532446_016_00005590507683362491_116_00011021699701961463_117_00020346903199415334_116_00003338886116348349_015_00000816496580927726_0,
  016_00019473805070200358_015_00002085679964532446_117_00036690030265397766_017_00028219975602413067_117_00017204766962921575_116_00003338886116348349_115_00001224744871391589_0,
  016_00019473805070200358_015_00002153080850137975_117_00032227615465444864_019_00013131449069732513_117_00012491562608180934_116_00003338886116348349_015_00000816496580927726_0,
  016_00019973765406476855_016_00022204817357435416_115_00001365365614143439_016_00014659361885892956_117_00009349426371687174_116_00003338886116348349_015_00000816496580927726_0,
  016_00019473805070200358_015_00002153080850137975_016_00005088486018367789_116_00010720749761478792_118_00062072901351934134_116_00003338886116348349_115_00001224744871391589_0,
  016_00019473805070200358_015_00002153080850137975_016_00004753804908371322_118_00018750184458538297_118_00014940857804527726_116_00003338886116348349_115_00001224744871391589_0,
  016_00019473805070200358_015_00002085679964532446_116_00005677089686518582_016_00008339413135756903_017_00003219118574287868_116_00003338886116348349_115_00001224744871391589_0,
  016_00018973844733924148_015_00002018279078926879_117_00013820154415639155_016_00005028963790447548_017_00007932322929028508_116_00003338886116348349_115_00001224744871391589_0,
  016_00019973765406476855_015_00002085679964532446_015_00000865841785833011_116_00008614100178100111_017_00012645527283769148_116_00003338886116348349_115_00001224744871391589_0,
  016_00019973765406476855_015_00002085679964532446_017_00014069938084066472_016_00010947645953273368_016_00001735873163850979_116_00003338886116348349_015_00000816496580927726_0,
  016_00019473805070200358_015_00002085679964532446_117_00013820154415639155_017_00011166145641728534_016_00002050086787500355_116_00003338886116348349_115_00001224744871391589_0,
  016_00019973765406476855_015_00002153080850137975_116_00002162938031555673_017_00006150313300350718_016_00002521407222974419_116_00003338886116348349_115_00001224744871391589_0,
  016_00019973765406476855_015_00002153080850137975_017_00042517832433766206_117_00021938347811365091_016_00002992727658448483_116_00003338886116348349_015_00000816496580927726_0,
  015_00002047372574275335_015_00002153080850137975_016_00002634157878393695_017_00011166145641728534_016_00003306941282097859_116_00003338886116348349_115_00001224744871391589_0,
  015_00002047372574275335_016_00022204817357435416_016_00010778064888307737_116_00011523282936099244_016_00003778261717571923_116_00003338886116348349_015_00000816496580927726_0,
  015_00002047372574275335_016_00022204817357435416_016_00008379516933333053_116_00007510617062996991_016_00004092475341221299_016_00029950108064592316_115_00001224744871391589_0,
  015_00002047372574275335_015_00002153080850137975_016_00002634157878393695_116_00005403967479618307_017_00048780094003447394_016_00029950108064592316_115_00001224744871391589_0,
  016_00019973765406476855_015_00002153080850137975_116_00012538052441446166_016_00007135613373826232_016_00005663543459468179_116_00003338886116348349_015_00000816496580927726_0,
  015_00002047372574275335_015_00002153080850137975_017_00016858947334037033_117_00042001677176876356_016_00005977757083117555_116_00003338886116348349_015_00000816496580927726_0,
  015_00002047372574275335_015_00002153080850137975_116_00003947903951536833_117_00005887684318956068_016_00006291970706766932_116_00003338886116348349_015_00000816496580927726_0,
  015_00002047372574275335_015_00002153080850137975_116_00007071594311503863_016_00007536879961136456_016_00006606184330416307_116_00003338886116348349_015_00000816496580927726_0,
  015_00002047372574275335_015_00002153080850137975_117_00016051361815615603_016_00006934980080171117_016_00006920397954065683_116_00003338886116348349_115_00001224744871391589_0,
  015_00002047372574275335_015_00002153080850137975_116_00007183154681502685_017_00024207309729310825_016_00007391718389539748_116_00003338886116348349_115_00001224744871391589_0,
  015_00002047372574275335_016_00022204817357435416_016_00007877495268338351_116_00010720749761478792_016_00007863038825013812_116_00003338886116348349_115_00001224744871391589_0,
  016_00019973765406476855_015_00002153080850137975_115_00001493660039642085_016_00028703692441750834_016_00008334359260487876_016_00029950108064592316_115_00001224744871391589_1,
  016_00019973765406476855_015_00002085679964532446_117_00037247832115391877_016_00005530547024585329_016_00009119893319611315_016_00029950108064592316_115_00001224744871391589_0,
  016_00019973765406476855_015_00002018279078926879_016_00009048879153325988_116_00009617266646375675_016_00009905427378734756_016_00029950108064592316_115_00001224744871391589_0,
  016_00019473805070200358_015_00002018279078926879_116_00003278541731543898_118_00008718519775782523_016_00010690961437858195_116_00003338886116348349_015_00000816496580927726_0,
  016_00019473805070200358_015_00002018279078926879_116_00005900210426516227_016_00008439729782584461_016_00011005175061507573_116_00003338886116348349_015_00000816496580927726_0,
  016_00018973844733924148_015_00001950878193321312_117_00013820154415639155_115_00000570491742010098_016_00011319388685156948_116_00003338886116348349_015_00000816496580927726_0,
  016_00018973844733924148_015_00001950878193321312_016_00004474903983374266_117_00043004843645151863_016_00011633602308806323_116_00003338886116348349_015_00000816496580927726_0,
  016_00018973844733924148_015_00001950878193321312_116_00008968120601483845_016_00005630863671412888_014_00000119478159324557_016_00029950108064592316_115_00001224744871391589_0,
  016_00019473805070200358_015_00001950878193321312_115_00000606755098151446_016_00013555878770789835_015_00001273334999157914_116_00003338886116348349_115_00001224744871391589_0,
  016_00018973844733924148_015_00001950878193321312_116_00009581702636477369_016_00009944479484997806_016_00013204670427053204_116_00003338886116348349_015_00000816496580927726_0,
  016_00019473805070200358_015_00001950878193321312_117_00007126532215709803_015_00000252104761975864_015_00001351888405070258_116_00003338886116348349_015_00000816496580927726_0,
  016_00019473805070200358_016_00018834773077157834_116_00006681133016507984_015_00000793814654844668_016_00013833097674351955_116_00003338886116348349_015_00000816496580927726_0,
  016_00019973765406476855_016_00018834773077157834_018_00017982973841959956_016_00002721680913413756_016_00014147311298001333_116_00003338886116348349_015_00000816496580927726_0,
  016_00019973765406476855_015_00001950878193321312_116_00009804823376475014_016_00022584376985269903_016_00014461524921650708_116_00003338886116348349_015_00000816496580927726_1,
  016_00019973765406476855_015_00001950878193321312_116_00012593832626445576_016_00013957145358100058_016_00014775738545300083_116_00003338886116348349_015_00000816496580927726_0,
  016_00019973765406476855_015_00001950878193321312_116_00002441838956552729_015_00000663403013968845_116_00016959837443286896_016_00029950108064592316_115_00001224744871391589_0,
  016_00019973765406476855_015_00002018279078926879_116_00007350495236500919_017_00021197810324484165_116_00016174303384163455_116_00003338886116348349_015_00000816496580927726_0,
  015_00002047372574275335_015_00002018279078926879_017_00015185541784054696_117_00027957346621018414_116_00015860089760514078_116_00003338886116348349_015_00000816496580927726_0,
  015_00002047372574275335_015_00002085679964532446_017_00006260712184148895_116_00009115683412237894_116_00015545876136864702_116_00003338886116348349_015_00000816496580927726_0,
  016_00020973686079029563_015_00002153080850137975_116_00007964077271494443_016_00010546379365963146_116_00015231662513215327_116_00003338886116348349_115_00001224744871391589_0,
  015_00002147364641530606_016_00022204817357435416_019_00068269368420777075_117_00009900350192058306_116_00014760342077741262_116_00003338886116348349_115_00001224744871391589_0,
  016_00020973686079029563_015_00002153080850137975_116_00008856560231485022_016_00008740679723067134_114_00000142890216422672_116_00003338886116348349_115_00001224744871391589_0,
  016_00020973686079029563_015_00002085679964532446_016_00003861321948380742_116_00008915050118582778_116_00013817701206793134_116_00003338886116348349_115_00001224744871391589_0,
  016_00020973686079029563_015_00002018279078926879_116_00005398188761521525_016_00000915981270517738_115_00001334638077131907_016_00029950108064592316_115_00001224744871391589_0,
  015_00002047372574275335_015_00002018279078926879_116_00007294715051501508_016_00005329913730930215_115_00001256084671219563_116_00003338886116348349_015_00000816496580927726_0,
  016_00019973765406476855_015_00002018279078926879_115_00000472882654152859_016_00006834663433343559_116_00012246633088546255_116_00003338886116348349_115_00001224744871391589_0,
  015_00002047372574275335_015_00002085679964532446_016_00007096572678346594_116_00005403967479618307_115_00001177531265307219_116_00003338886116348349_015_00000816496580927726_0,
  015_00002047372574275335_015_00002153080850137975_115_00000963748282147678_015_00000663403013968845_116_00011461099029422814_116_00003338886116348349_015_00000816496580927726_0,
  016_00020973686079029563_015_00002153080850137975_116_00004171024691534478_015_00000492864714361999_115_00001114688540577344_116_00003338886116348349_015_00000816496580927726_0,
  015_00002147364641530606_016_00022204817357435416_015_00001317661284328242_116_00015134682221891271_116_00010832671782124061_116_00003338886116348349_015_00000816496580927726_0,
  015_00002147364641530606_014_00000228788262134907_117_00031669813615450754_015_00000382516402851687_116_00010518458158474686_116_00003338886116348349_115_00001224744871391589_0,
  016_00020973686079029563_014_00000228788262134907_116_00007127374496503274_016_00014859995179548064_116_00010047137723000623_116_00003338886116348349_115_00001224744871391589_0,
  016_00020973686079029563_016_00022204817357435416_116_00007183154681502685_016_00011649862481066267_116_00009575817287526558_116_00003338886116348349_015_00000816496580927726_0,
  015_00002047372574275335_016_00022204817357435416_117_00024976191415521404_117_00009900350192058306_116_00009261603663877183_116_00003338886116348349_115_00001224744871391589_0,
  015_00002047372574275335_015_00002153080850137975_017_00028572786183913396_016_00003423897441206646_116_00008790283228403118_016_00029950108064592316_115_00001224744871391589_0,
  015_00002047372574275335_015_00002085679964532446_116_00011812910036453819_016_00014157778651755175_116_00008004749169279678_116_00003338886116348349_015_00000816496580927726_0,
  015_00002047372574275335_015_00002085679964532446_016_00023997968733168205_116_00019247664741821078_116_00007690535545630302_116_00003338886116348349_015_00000816496580927726_0,
  016_00019973765406476855_015_00002018279078926879_116_00009023900786483257_016_00016063794941478742_116_00007376321921980926_116_00003338886116348349_115_00001224744871391589_0,
  016_00019973765406476855_015_00002018279078926879_018_00012404955342018832_016_00005931813611895553_116_00006905001486506862_116_00003338886116348349_015_00000816496580927726_0,
  016_00019973765406476855_015_00002018279078926879_016_00008156396193335408_116_00011824232876581913_116_00006590787862857486_116_00003338886116348349_115_00001224744871391589_0,
  016_00019973765406476855_015_00002085679964532446_116_00004115244506535067_017_00010162979173452956_116_00006119467427383422_116_00003338886116348349_015_00000816496580927726_0,
  016_00019473805070200358_015_00002085679964532446_117_00031112011765456643_015_00000723593002065379_116_00005805253803734046_116_00003338886116348349_115_00001224744871391589_0,
  016_00019473805070200358_015_00002153080850137975_017_00017416749184031147_017_00007153479768626296_116_00005333933368259982_116_00003338886116348349_115_00001224744871391589_0,
  016_00019473805070200358_015_00002153080850137975_116_00010808866706464417_016_00008239096488929353_117_00048626129327859174_116_00003338886116348349_015_00000816496580927726_0,
  016_00019473805070200358_015_00002153080850137975_016_00003861321948380742_017_00006150313300350718_117_00045483993091365416_116_00003338886116348349_115_00001224744871391589_0,
  016_00019973765406476855_016_00022204817357435416_115_00000690425375650563_016_00012853662242996937_117_00040770788736624775_116_00003338886116348349_115_00001224744871391589_0,
  015_00002047372574275335_016_00023552835069546374_117_00038363435815380104_016_00005831496965067996_117_00036057584381884134_116_00003338886116348349_115_00001224744871391589_0,
  015_00002047372574275335_016_00023552835069546374_116_00006179111351513282_118_00008718519775782523_115_00000313443800271435_116_00003338886116348349_115_00001224744871391589_0,
  016_00020973686079029563_016_00023552835069546374_017_00049211454633695556_116_00007811567003479657_117_00026631175672402857_016_00029950108064592316_115_00001224744871391589_0,
  016_00020973686079029563_014_00000228788262134907_117_00045614859865303564_016_00009442896250860024_117_00018775835081168454_116_00003338886116348349_015_00000816496580927726_0,
  016_00020973686079029563_014_00000228788262134907_116_00003557442656540954_018_00021376474272484798_117_00015633698844674693_116_00003338886116348349_015_00000816496580927726_0,
  016_00020973686079029563_016_00023552835069546374_115_00000562130950151917_015_00001014511277865292_117_00012491562608180934_116_00003338886116348349_015_00000816496580927726_0]

/-- lr/data.csv 5102-5201 -/
def dataCsv51 : List ℕ := [
  016_00020973686079029563_016_00023552835069546374_116_00005677089686518582_015_00000723593002065379_117_00009349426371687174_116_00003338886116348349_115_00001224744871391589_0,
  015_00002047372574275335_014_00000228788262134907_117_00011588947015662704_017_00024207309729310825_118_00046362220169465326_116_00003338886116348349_115_00001224744871391589_0,
  015_00002047372574275335_016_00023552835069546374_016_00002689938063393106_115_00000640713394789387_019_00007698233779410749_116_00003338886116348349_115_00001224744871391589_0,
  015_00002047372574275335_014_00000228788262134907_116_00007796736716496209_016_00003724847381689319_017_00004790186692534748_116_00003338886116348349_015_00000816496580927726_0,
  015_00002047372574275335_016_00023552835069546374_117_00038921237665374214_016_00004627697203137324_017_00007932322929028508_116_00003338886116348349_015_00000816496580927726_0,
  015_00002047372574275335_014_00000228788262134907_115_00000919124134148149_016_00016665694822444082_017_00011074459165522269_116_00003338886116348349_015_00000816496580927726_0,
  016_00019973765406476855_016_00022204817357435416_117_00011031145165668592_117_00032973178962396227_016_00001421659540201603_116_00003338886116348349_015_00000816496580927726_0,
  016_00019473805070200358_015_00002153080850137975_019_00068269368420777075_016_00004427063909482209_016_00001735873163850979_116_00003338886116348349_015_00000816496580927726_0,
  016_00019473805070200358_016_00022204817357435416_116_00008075637641493265_016_00011649862481066267_016_00002050086787500355_116_00003338886116348349_015_00000816496580927726_0,
  016_00019973765406476855_014_00000228788262134907_116_00008354538566490322_016_00005831496965067996_016_00002364300411149731_116_00003338886116348349_115_00001224744871391589_0,
  016_00019973765406476855_016_00023552835069546374_016_00010778064888307737_115_00001383056581313304_016_00002835620846623795_116_00003338886116348349_115_00001224744871391589_0,
  015_00002047372574275335_015_00002422684392560204_016_00000960752328411357_116_00002595101368446733_016_00003306941282097859_116_00003338886116348349_015_00000816496580927726_0,
  015_00002047372574275335_015_00002422684392560204_116_00005453968946520936_016_00003724847381689319_017_00036211549057472353_116_00003338886116348349_115_00001224744871391589_0,
  015_00002047372574275335_015_00002422684392560204_114_00000087449998614862_016_00006734346786516008_016_00004092475341221299_116_00003338886116348349_015_00000816496580927726_0,
  016_00020973686079029563_013_00000025574861637713_117_00032227615465444864_015_00000492864714361999_017_00044066889648706753_116_00003338886116348349_115_00001224744871391589_0,
  016_00020973686079029563_016_00024900852781657328_016_00032030315373083424_116_00021655264265682432_017_00048780094003447394_116_00003338886116348349_115_00001224744871391589_0,
  016_00020973686079029563_013_00000025574861637713_116_00007685176346497387_016_00013957145358100058_016_00005349329835818804_116_00003338886116348349_015_00000816496580927726_0,
  015_00002047372574275335_015_00002422684392560204_016_00004028662503378976_116_00008614100178100111_016_00005663543459468179_116_00003338886116348349_015_00000816496580927726_0,
  016_00020973686079029563_015_00002422684392560204_116_00001493575811562738_116_00006607767241548985_016_00005977757083117555_116_00003338886116348349_115_00001224744871391589_0,
  016_00020973686079029563_015_00002422684392560204_116_00007127374496503274_016_00006032130258723112_016_00006449077518591619_116_00003338886116348349_015_00000816496580927726_0,
  016_00020973686079029563_015_00002422684392560204_116_00006402232091510928_016_00003724847381689319_016_00006763291142240996_116_00003338886116348349_115_00001224744871391589_0,
  016_00020973686079029563_015_00002422684392560204_117_00038921237665374214_019_00013131449069732513_015_00000723461157771506_116_00003338886116348349_015_00000816496580927726_0,
  016_00020973686079029563_016_00023552835069546374_016_00008100616008335997_115_00001021916652734101_016_00007548825201364435_016_00029950108064592316_115_00001224744871391589_0,
  016_00020973686079029563_016_00023552835069546374_117_00003779721115745129_017_00013172478578279617_016_00008334359260487876_116_00003338886116348349_115_00001224744871391589_0,
  016_00020973686079029563_016_00023552835069546374_017_00010165325134107683_117_00026954180152742907_015_00000880567969596194_116_00003338886116348349_115_00001224744871391589_0,
  015_00002147364641530606_016_00023552835069546374_116_00006848473571506217_016_00008138779842101795_016_00009277000131436004_116_00003338886116348349_115_00001224744871391589_0,
  015_00002147364641530606_016_00023552835069546374_016_00014682677838266525_115_00001463309898775349_016_00009748320566910068_116_00003338886116348349_015_00000816496580927726_0,
  015_00002147364641530606_016_00023552835069546374_016_00039393299793005707_115_00002496571361099179_016_00010062534190559445_116_00003338886116348349_115_00001224744871391589_0,
  016_00020973686079029563_014_00000228788262134907_116_00005844430241516816_015_00000252104761975864_016_00010533854626033508_116_00003338886116348349_015_00000816496580927726_0,
  015_00002047372574275335_016_00022204817357435416_016_00010387603593311858_116_00011723916229754356_016_00010848068249682883_116_00003338886116348349_115_00001224744871391589_0,
  016_00020973686079029563_016_00022204817357435416_016_00007208133048345416_117_00043004843645151863_016_00011319388685156948_116_00003338886116348349_015_00000816496580927726_0,
  015_00002047372574275335_016_00022204817357435416_116_00004840386911527413_016_00003925480675344427_016_00011633602308806323_116_00003338886116348349_015_00000816496580927726_0,
  015_00002047372574275335_016_00022204817357435416_115_00000690425375650563_016_00010044796131825364_014_00000119478159324557_116_00003338886116348349_015_00000816496580927726_0,
  015_00002047372574275335_015_00002153080850137975_016_00015909841908253572_116_00014231832400443263_016_00012262029556105076_116_00003338886116348349_015_00000816496580927726_0,
  015_00002047372574275335_016_00022204817357435416_115_00000562130950151917_016_00005530547024585329_016_00012576243179754452_116_00003338886116348349_015_00000816496580927726_0,
  015_00002047372574275335_016_00022204817357435416_016_00019200872823218835_116_00015535948809201496_016_00012890456803403827_116_00003338886116348349_015_00000816496580927726_0,
  016_00020973686079029563_014_00000228788262134907_015_00001094540544330597_115_00001112201634878902_016_00013204670427053204_116_00003338886116348349_015_00000816496580927726_0,
  015_00002147364641530606_016_00023552835069546374_116_00004171024691534478_117_00032973178962396227_015_00001351888405070258_116_00003338886116348349_015_00000816496580927726_0,
  015_00002147364641530606_015_00002422684392560204_116_00002776520066549197_017_00003140813895523986_016_00013833097674351955_116_00003338886116348349_115_00001224744871391589_0,
  015_00002197360675158227_015_00002422684392560204_117_00016051361815615603_117_00010903516660333884_015_00001430441810982602_116_00003338886116348349_115_00001224744871391589_0,
  015_00002147364641530606_015_00002422684392560204_016_00002578377693394283_116_00007911883650307214_016_00014775738545300083_116_00003338886116348349_115_00001224744871391589_0,
  015_00002197360675158227_016_00024900852781657328_117_00016609163665609716_116_00005002700892308083_016_00015247058980774149_116_00003338886116348349_015_00000816496580927726_1,
  015_00002197360675158227_015_00002422684392560204_016_00001630114548404292_117_00008897183723782728_116_00016959837443286896_116_00003338886116348349_015_00000816496580927726_0,
  015_00002147364641530606_016_00023552835069546374_117_00007684334065703917_017_00020194643856208588_116_00016645623819637518_116_00003338886116348349_115_00001224744871391589_0,
  015_00002197360675158227_016_00024900852781657328_016_00003805541763381331_116_00006507450594721428_116_00016174303384163455_116_00003338886116348349_015_00000816496580927726_0,
  016_00022473567087858766_016_00024900852781657328_015_00000731969341834424_116_00007109350475686768_116_00015860089760514078_116_00003338886116348349_015_00000816496580927726_0,
  015_00002197360675158227_015_00002422684392560204_016_00002578377693394283_117_00010903516660333884_116_00015545876136864702_116_00003338886116348349_015_00000816496580927726_0,
  015_00002197360675158227_015_00002422684392560204_017_00016858947334037033_115_00000159193490017117_116_00015231662513215327_116_00003338886116348349_015_00000816496580927726_0,
  015_00002197360675158227_015_00002422684392560204_116_00001772476736559794_015_00000312294750072398_115_00001491744888956595_116_00003338886116348349_015_00000816496580927726_0,
  015_00002147364641530606_016_00023552835069546374_116_00004840386911527413_017_00015178811514830773_116_00014603235265916574_116_00003338886116348349_015_00000816496580927726_0,
  015_00002147364641530606_016_00023552835069546374_017_00028572786183913396_115_00001021916652734101_114_00000142890216422672_116_00003338886116348349_015_00000816496580927726_0,
  015_00002147364641530606_015_00002422684392560204_116_00007238934866502097_016_00016063794941478742_116_00013974808018617824_116_00003338886116348349_015_00000816496580927726_0,
  015_00002147364641530606_016_00023552835069546374_015_00006159381342277139_116_00027373313134853143_116_00013660594394968446_116_00003338886116348349_015_00000816496580927726_0,
  016_00020973686079029563_014_00000228788262134907_016_00005869408608359546_116_00008313150237617443_115_00001334638077131907_116_00003338886116348349_015_00000816496580927726_0,
  016_00020973686079029563_014_00000228788262134907_016_00001630114548404292_117_00023944680747916175_116_00013032167147669695_116_00003338886116348349_015_00000816496580927726_0,
  016_00020973686079029563_016_00022204817357435416_017_00048095850933707335_117_00026954180152742907_116_00012717953524020318_016_00029950108064592316_115_00001224744871391589_0,
  016_00020973686079029563_014_00000228788262134907_117_00031669813615450754_017_00014175645046555194_116_00011932419464896877_116_00003338886116348349_015_00000816496580927726_0,
  015_00002047372574275335_016_00022204817357435416_116_00007908297086495032_015_00000964352954451514_116_00011618205841247502_016_00029950108064592316_115_00001224744871391589_0,
  015_00002047372574275335_016_00022204817357435416_117_00044499256165315343_015_00001034574607230803_116_00010832671782124061_116_00003338886116348349_015_00000816496580927726_0,
  016_00020973686079029563_014_00000228788262134907_116_00002720739881549785_016_00004025797322171985_116_00010518458158474686_116_00003338886116348349_015_00000816496580927726_0,
  015_00002047372574275335_015_00002153080850137975_116_00005844430241516816_015_00001014511277865292_115_00001020424453482531_116_00003338886116348349_015_00000816496580927726_0,
  015_00002047372574275335_015_00002153080850137975_016_00027288999648133467_115_00002115368103154465_116_00009890030911175934_116_00003338886116348349_115_00001224744871391589_0,
  016_00020973686079029563_016_00022204817357435416_116_00004171024691534478_016_00005931813611895553_115_00000941871047570187_116_00003338886116348349_015_00000816496580927726_0,
  016_00020973686079029563_014_00000228788262134907_016_00009718241373318923_115_00001653911527747706_116_00009104496852052494_116_00003338886116348349_115_00001224744871391589_0,
  015_00002147364641530606_014_00000228788262134907_016_00004753804908371322_116_00007911883650307214_115_00000863317641657843_116_00003338886116348349_115_00001224744871391589_0,
  016_00020973686079029563_014_00000228788262134907_116_00006569572646509162_016_00003423897441206646_116_00008161855981104366_116_00003338886116348349_015_00000816496580927726_0,
  016_00020973686079029563_016_00023552835069546374_018_00040295047841724455_017_00014175645046555194_115_00000784764235745499_016_00029950108064592316_115_00001224744871391589_0,
  016_00020973686079029563_014_00000228788262134907_016_00005590507683362491_116_00007309983769341876_115_00000706210829833155_116_00003338886116348349_015_00000816496580927726_0,
  015_00002047372574275335_014_00000228788262134907_016_00008769978228328932_116_00010419799820996123_116_00006747894674682174_016_00029950108064592316_115_00001224744871391589_0,
  015_00002047372574275335_016_00022204817357435416_117_00038363435815380104_118_00008718519775782523_116_00005962360615558734_116_00003338886116348349_015_00000816496580927726_0,
  015_00002047372574275335_016_00022204817357435416_116_00003278541731543898_115_00000159193490017117_116_00005648146991909357_116_00003338886116348349_115_00001224744871391589_0,
  016_00020973686079029563_014_00000228788262134907_116_00011701349666454997_016_00014559045239065398_116_00005176826556435293_116_00003338886116348349_115_00001224744871391589_0,
  016_00020973686079029563_014_00000228788262134907_016_00011224306368303028_116_00011824232876581913_115_00000470550612096123_116_00003338886116348349_015_00000816496580927726_0,
  016_00020973686079029563_016_00023552835069546374_016_00011168526183303615_116_00011924549523409467_116_00004391292497311854_116_00003338886116348349_115_00001224744871391589_0,
  016_00020973686079029563_016_00023552835069546374_115_00000829875838149091_016_00007837829901619122_115_00000391997206183779_116_00003338886116348349_115_00001224744871391589_0,
  016_00020973686079029563_014_00000228788262134907_016_00011224306368303028_116_00016338481983821946_117_00034486516263637257_116_00003338886116348349_015_00000816496580927726_0,
  016_00019973765406476855_016_00022204817357435416_016_00017025445608241796_116_00012927715991685031_115_00000313443800271435_116_00003338886116348349_115_00001224744871391589_0,
  016_00019973765406476855_015_00002085679964532446_116_00008410318751489733_016_00013254928830307169_117_00026631175672402857_016_00029950108064592316_115_00001224744871391589_0,
  016_00019973765406476855_015_00002153080850137975_117_00012146748865656816_015_00000312294750072398_117_00018775835081168454_016_00029950108064592316_115_00001224744871391589_0,
  016_00019973765406476855_015_00002085679964532446_117_00049519472815262355_017_00028219975602413067_117_00010920494489934053_116_00003338886116348349_115_00001224744871391589_0,
  016_00019973765406476855_015_00002153080850137975_016_00002522597508394872_117_00012909849596884967_118_00062072901351934134_116_00003338886116348349_015_00000816496580927726_0,
  016_00019973765406476855_015_00002085679964532446_016_00010108702668314802_116_00011322649642444131_117_00003065153898699653_116_00003338886116348349_015_00000816496580927726_0,
  016_00019473805070200358_015_00002085679964532446_016_00002634157878393695_115_00000811251694396233_019_00007698233779410749_116_00003338886116348349_015_00000816496580927726_0,
  016_00019473805070200358_015_00002018279078926879_015_00002020491615320824_116_00017542281745752621_017_00003219118574287868_116_00003338886116348349_115_00001224744871391589_0,
  016_00019973765406476855_015_00002018279078926879_116_00007908297086495032_017_00024207309729310825_017_00007932322929028508_116_00003338886116348349_015_00000816496580927726_0,
  016_00019973765406476855_015_00002018279078926879_016_00026396516688142886_115_00001894671480133841_017_00011074459165522269_116_00003338886116348349_015_00000816496580927726_0,
  016_00019973765406476855_015_00002018279078926879_015_00004547333995794153_116_00025066030257819345_016_00001421659540201603_116_00003338886116348349_015_00000816496580927726_0,
  016_00019973765406476855_015_00002085679964532446_016_00006092529348357192_117_00043004843645151863_016_00001735873163850979_116_00003338886116348349_015_00000816496580927726_0,
  016_00019973765406476855_015_00002153080850137975_016_00005200046388366611_116_00009416633352720559_016_00002050086787500355_116_00003338886116348349_015_00000816496580927726_0,
  015_00002047372574275335_015_00002153080850137975_116_00006234891536512694_016_00006934980080171117_016_00002364300411149731_116_00003338886116348349_115_00001224744871391589_0,
  015_00002047372574275335_015_00002153080850137975_116_00004840386911527413_016_00008038463195274238_016_00002835620846623795_116_00003338886116348349_015_00000816496580927726_0,
  016_00019973765406476855_015_00002153080850137975_116_00006848473571506217_016_00006032130258723112_016_00003149834470273171_116_00003338886116348349_015_00000816496580927726_0,
  016_00019473805070200358_015_00002085679964532446_115_00001276117318144381_015_00002298564357258013_016_00003464048093922547_116_00003338886116348349_015_00000816496580927726_0,
  016_00019973765406476855_015_00002085679964532446_116_00007294715051501508_118_00018750184458538297_016_00003778261717571923_016_00029950108064592316_115_00001224744871391589_0,
  016_00019473805070200358_015_00002085679964532446_016_00007208133048345416_116_00005604600773273423_016_00004563795776695363_116_00003338886116348349_115_00001224744871391589_0,
  016_00019473805070200358_015_00002018279078926879_017_00006818514034143008_117_00031970012494120725_016_00005035116212169427_116_00003338886116348349_015_00000816496580927726_0,
  016_00019473805070200358_015_00002018279078926879_117_00012146748865656816_115_00000399953442403252_016_00005349329835818804_016_00029950108064592316_115_00001224744871391589_0,
  016_00018973844733924148_015_00001950878193321312_017_00017416749184031147_117_00042001677176876356_016_00006134863894942243_016_00029950108064592316_115_00001224744871391589_0,
  016_00018973844733924148_016_00018834773077157834_116_00006179111351513282_016_00013355245477134718_016_00006920397954065683_116_00003338886116348349_015_00000816496580927726_0,
  016_00018973844733924148_016_00018834773077157834_116_00001995597476557439_019_00013131449069732513_015_00000723461157771506_116_00003338886116348349_015_00000816496580927726_0]

/-- lr/data.csv 5202-5301 -/
def dataCsv52 : List ℕ := [
  016_00018973844733924148_016_00018834773077157834_116_00006848473571506217_016_00018772344405822765_016_00007548825201364435_116_00003338886116348349_015_00000816496580927726_0,
  015_00001847388439764765_016_00018160764221102164_116_00007964077271494443_016_00007336246667481341_016_00007863038825013812_116_00003338886116348349_115_00001224744871391589_0,
  015_00001847388439764765_016_00018160764221102164_116_00011366668556458528_016_00011148279246928485_016_00008334359260487876_116_00003338886116348349_015_00000816496580927726_0,
  015_00001847388439764765_016_00017486755365046878_016_00007375473603343651_116_00009516949999548118_016_00008648572884137251_116_00003338886116348349_115_00001224744871391589_0,
  015_00001847388439764765_016_00018160764221102164_016_00025113572433156426_115_00001764259839258018_016_00009119893319611315_116_00003338886116348349_015_00000816496580927726_0,
  015_00001847388439764765_016_00018160764221102164_116_00003947903951536833_016_00003323580794379088_016_00009434106943260692_116_00003338886116348349_015_00000816496580927726_0,
  015_00001847388439764765_016_00017486755365046878_016_00009606681003320101_116_00012426132757547248_016_00009748320566910068_016_00029950108064592316_115_00001224744871391589_0,
  016_00018973844733924148_016_00018160764221102164_116_00002832300251548608_017_00013172478578279617_016_00010533854626033508_116_00003338886116348349_115_00001224744871391589_0,
  016_00018973844733924148_016_00018160764221102164_016_00006985012308347772_116_00010720749761478792_016_00011005175061507573_116_00003338886116348349_015_00000816496580927726_0,
  016_00018973844733924148_016_00018160764221102164_116_00001772476736559794_117_00014916182533436123_016_00011319388685156948_116_00003338886116348349_115_00001224744871391589_0,
  015_00001847388439764765_016_00017486755365046878_116_00004059464321535655_015_00000252104761975864_015_00001179070912063101_116_00003338886116348349_015_00000816496580927726_0,
  015_00001847388439764765_016_00016812746508991208_116_00005900210426516227_016_00013656195417617392_016_00012104922744280389_116_00003338886116348349_015_00000816496580927726_0,
  015_00001847388439764765_016_00016812746508991208_116_00007908297086495032_016_00005731180318240445_016_00012419136367929764_116_00003338886116348349_015_00000816496580927726_0,
  015_00001847388439764765_016_00017486755365046878_116_00006123331166513871_016_00003323580794379088_015_00001273334999157914_116_00003338886116348349_115_00001224744871391589_0,
  015_00001847388439764765_016_00018160764221102164_016_00001853235288401937_117_00027957346621018414_016_00013204670427053204_116_00003338886116348349_015_00000816496580927726_0,
  015_00001847388439764765_016_00018160764221102164_117_00003779721115745129_016_00002721680913413756_015_00001351888405070258_116_00003338886116348349_115_00001224744871391589_0,
  015_00001847388439764765_016_00018160764221102164_116_00012426492071447344_016_00011850495774721375_016_00013990204486176645_116_00003338886116348349_115_00001224744871391589_0,
  016_00018973844733924148_016_00018834773077157834_116_00006625352831508573_015_00000793814654844668_016_00014461524921650708_116_00003338886116348349_115_00001224744871391589_0,
  016_00018973844733924148_015_00001950878193321312_017_00028014984333919285_117_00027957346621018414_016_00014932845357124773_116_00003338886116348349_015_00000816496580927726_0,
  016_00018973844733924148_015_00002018279078926879_116_00009693263006476192_016_00019976144167753438_016_00015247058980774149_116_00003338886116348349_015_00000816496580927726_1,
  016_00018973844733924148_015_00002018279078926879_016_00005255826573366024_116_00007109350475686768_016_00015561272604423524_116_00003338886116348349_015_00000816496580927726_0,
  016_00019473805070200358_015_00002018279078926879_017_00048653652783701445_116_00008614100178100111_014_00000158754862280729_116_00003338886116348349_015_00000816496580927726_0,
  016_00019473805070200358_015_00002085679964532446_016_00007040792493347183_116_00010419799820996123_116_00016959837443286896_116_00003338886116348349_015_00000816496580927726_0,
  016_00019473805070200358_015_00002153080850137975_115_00001052996578146736_015_00000723593002065379_116_00016645623819637518_116_00003338886116348349_115_00001224744871391589_0,
  016_00019473805070200358_015_00002153080850137975_017_00028572786183913396_115_00000811251694396233_116_00016174303384163455_116_00003338886116348349_015_00000816496580927726_0,
  016_00019973765406476855_015_00002153080850137975_116_00005677089686518582_016_00013957145358100058_116_00015860089760514078_116_00003338886116348349_115_00001224744871391589_0,
  016_00019473805070200358_015_00002018279078926879_116_00007573615976498564_016_00008339413135756903_116_00015388769325040015_116_00003338886116348349_015_00000816496580927726_0,
  016_00019473805070200358_015_00002085679964532446_116_00005509749131520348_017_00011166145641728534_115_00001507455570139064_116_00003338886116348349_015_00000816496580927726_0,
  016_00019473805070200358_015_00002085679964532446_115_00001092042707646324_016_00021480893870166784_116_00014760342077741262_116_00003338886116348349_115_00001224744871391589_0,
  016_00019473805070200358_015_00002085679964532446_015_00001401331561827359_116_00013328982578995259_114_00000142890216422672_016_00029950108064592316_115_00001224744871391589_0,
  016_00018973844733924148_015_00002085679964532446_015_00003225343611308107_116_00021454630972027315_116_00013503487583143758_116_00003338886116348349_115_00001224744871391589_0,
  016_00018973844733924148_015_00002085679964532446_117_00045057058015309454_016_00002220097679275974_116_00013032167147669695_116_00003338886116348349_015_00000816496580927726_0,
  015_00001797392406137144_015_00001950878193321312_116_00008800780046485611_016_00017869494584374754_116_00012717953524020318_116_00003338886116348349_015_00000816496580927726_0,
  015_00001797392406137144_015_00001950878193321312_117_00049519472815262355_016_00005329913730930215_116_00012403739900370943_116_00003338886116348349_015_00000816496580927726_0,
  015_00001847388439764765_015_00001950878193321312_117_00043383652465327116_015_00001014511277865292_116_00012089526276721567_116_00003338886116348349_015_00000816496580927726_0,
  015_00001847388439764765_015_00001950878193321312_117_00015493559965621492_017_00010162979173452956_115_00001177531265307219_116_00003338886116348349_115_00001224744871391589_0,
  016_00018973844733924148_015_00002085679964532446_116_00008075637641493265_016_00005430230377757772_116_00011303992217598127_116_00003338886116348349_015_00000816496580927726_0,
  016_00018973844733924148_015_00002018279078926879_117_00022187182165550842_017_00023204143261035248_116_00010989778593948751_116_00003338886116348349_015_00000816496580927726_0,
  015_00001847388439764765_015_00002018279078926879_117_00045614859865303564_016_00004126113968999543_116_00010675564970299374_116_00003338886116348349_015_00000816496580927726_0,
  015_00001847388439764765_015_00002018279078926879_016_00011949448773295372_116_00011021699701961463_116_00010361351346649998_116_00003338886116348349_015_00000816496580927726_0,
  015_00001847388439764765_015_00002018279078926879_015_00000865841785833011_116_00012024866170237025_116_00010047137723000623_116_00003338886116348349_015_00000816496580927726_0,
  015_00001847388439764765_015_00002085679964532446_016_00008044835823336586_114_00000116235995829268_116_00009732924099351247_116_00003338886116348349_015_00000816496580927726_0,
  015_00001847388439764765_015_00002085679964532446_116_00002386058771553318_016_00007436563314308898_115_00000941871047570187_116_00003338886116348349_015_00000816496580927726_0,
  015_00001847388439764765_015_00002085679964532446_016_00010164482853314214_116_00005203334185963199_116_00009104496852052494_116_00003338886116348349_015_00000816496580927726_0,
  015_00001797392406137144_015_00002018279078926879_017_00030246191733895733_116_00008413466884444997_116_00008790283228403118_116_00003338886116348349_015_00000816496580927726_0,
  015_00001797392406137144_015_00002018279078926879_017_00020205758434001708_117_00016922515469987276_116_00008476069604753742_116_00003338886116348349_015_00000816496580927726_0,
  016_00017473963725094943_015_00002018279078926879_116_00004115244506535067_017_00010162979173452956_116_00008161855981104366_116_00003338886116348349_015_00000816496580927726_0,
  015_00001797392406137144_015_00002085679964532446_116_00007462055606499741_117_00016922515469987276_115_00000784764235745499_116_00003338886116348349_015_00000816496580927726_0,
  016_00017473963725094943_015_00002018279078926879_015_00002026069633820765_116_00018445131567200628_116_00007533428733805614_116_00003338886116348349_115_00001224744871391589_0,
  016_00016974003388818448_015_00001950878193321312_115_00000651379246150975_118_00008718519775782523_115_00000706210829833155_116_00003338886116348349_115_00001224744871391589_0,
  016_00017473963725094943_015_00001950878193321312_116_00011534009111456762_016_00012953978889824496_116_00006590787862857486_116_00003338886116348349_015_00000816496580927726_0,
  016_00016974003388818448_015_00001950878193321312_116_00012928513736442044_016_00014358411945410283_115_00000627657423920811_116_00003338886116348349_115_00001224744871391589_0,
  016_00017473963725094943_015_00002018279078926879_116_00012091810961450875_016_00019574877580443213_116_00005805253803734046_116_00003338886116348349_015_00000816496580927726_0,
  016_00017473963725094943_015_00002018279078926879_017_00004587306634166558_017_00003140813895523986_115_00000549104018008467_116_00003338886116348349_015_00000816496580927726_0,
  016_00017473963725094943_015_00002085679964532446_016_00019981795413210592_114_00000164387986306495_116_00005176826556435293_116_00003338886116348349_015_00000816496580927726_0,
  016_00017473963725094943_015_00002018279078926879_116_00007573615976498564_016_00011950812421548933_117_00048626129327859174_116_00003338886116348349_115_00001224744871391589_0,
  016_00017473963725094943_015_00002018279078926879_116_00008131417826492676_016_00011649862481066267_116_00004391292497311854_116_00003338886116348349_015_00000816496580927726_0,
  016_00017473963725094943_015_00002018279078926879_117_00031669813615450754_117_00014916182533436123_117_00040770788736624775_116_00003338886116348349_015_00000816496580927726_0,
  016_00017473963725094943_015_00001950878193321312_016_00001853235288401937_016_00004728013849964882_117_00037628652500131016_116_00003338886116348349_115_00001224744871391589_0,
  016_00017473963725094943_015_00001950878193321312_018_00029139010841842207_117_00030966846025845146_117_00032915448145390375_116_00003338886116348349_015_00000816496580927726_0,
  016_00017473963725094943_015_00002018279078926879_116_00002609179511550963_016_00006132446905550669_117_00029773311908896616_116_00003338886116348349_115_00001224744871391589_0,
  016_00016974003388818448_016_00018834773077157834_117_00014377956265633265_117_00042001677176876356_117_00025060107554155975_116_00003338886116348349_015_00000816496580927726_0,
  016_00016974003388818448_016_00018834773077157834_116_00005007727466525647_016_00003925480675344427_117_00021917971317662216_116_00003338886116348349_015_00000816496580927726_0,
  016_00017473963725094943_016_00018834773077157834_016_00018866191713222369_116_00017742915039407734_117_00018775835081168454_116_00003338886116348349_015_00000816496580927726_0,
  016_00016974003388818448_016_00018834773077157834_116_00009079680971482668_016_00013455562123962277_117_00015633698844674693_116_00003338886116348349_015_00000816496580927726_0,
  016_00017473963725094943_015_00001950878193321312_016_00019200872823218835_116_00016739748571132171_117_00012491562608180934_116_00003338886116348349_115_00001224744871391589_0,
  016_00016974003388818448_016_00018834773077157834_117_00011588947015662704_117_00012909849596884967_117_00007778358253440293_116_00003338886116348349_115_00001224744871391589_0,
  016_00017473963725094943_015_00001950878193321312_115_00000562130950151917_017_00028219975602413067_117_00003065153898699653_116_00003338886116348349_115_00001224744871391589_0,
  016_00016974003388818448_015_00001950878193321312_116_00008354538566490322_016_00014157778651755175_018_00016480504560409875_116_00003338886116348349_015_00000816496580927726_0,
  016_00017473963725094943_015_00001950878193321312_117_00019398172915580278_016_00004828330496792433_017_00004790186692534748_116_00003338886116348349_015_00000816496580927726_0,
  016_00017473963725094943_015_00001950878193321312_116_00014713479656423203_015_00002449039327499348_017_00007932322929028508_116_00003338886116348349_015_00000816496580927726_0,
  015_00001797392406137144_015_00002018279078926879_117_00002664117415756904_118_00028781849141293357_017_00011074459165522269_116_00003338886116348349_015_00000816496580927726_0,
  015_00001797392406137144_015_00002018279078926879_116_00007964077271494443_117_00017925681938262783_016_00001421659540201603_116_00003338886116348349_115_00001224744871391589_0,
  015_00001797392406137144_015_00002085679964532446_116_00008019857456493854_016_00004126113968999543_017_00018929799756756668_116_00003338886116348349_015_00000816496580927726_0,
  015_00001797392406137144_015_00002018279078926879_017_00043633436133754433_116_00009115683412237894_016_00002207193599325043_116_00003338886116348349_015_00000816496580927726_0,
  015_00001847388439764765_015_00002085679964532446_116_00006458012276510339_017_00012169312110004112_016_00002521407222974419_116_00003338886116348349_015_00000816496580927726_0,
  016_00017473963725094943_015_00002018279078926879_017_00037497615783819194_116_00006005867360583647_016_00002835620846623795_116_00003338886116348349_015_00000816496580927726_0,
  016_00017473963725094943_015_00001950878193321312_117_00021071578465562615_016_00004025797322171985_016_00003149834470273171_116_00003338886116348349_015_00000816496580927726_0,
  016_00017473963725094943_015_00001950878193321312_017_00044191237983748544_116_00009617266646375675_016_00003464048093922547_116_00003338886116348349_115_00001224744871391589_0,
  015_00001797392406137144_015_00002018279078926879_117_00009357739615686254_117_00042001677176876356_016_00003935368529396611_116_00003338886116348349_015_00000816496580927726_0,
  015_00001797392406137144_015_00001950878193321312_116_00003278541731543898_017_00014175645046555194_016_00004249582153045987_116_00003338886116348349_015_00000816496580927726_0,
  015_00001847388439764765_015_00002018279078926879_117_00038921237665374214_118_00008718519775782523_016_00004563795776695363_116_00003338886116348349_115_00001224744871391589_0,
  016_00018973844733924148_015_00002153080850137975_116_00008800780046485611_016_00012452395655686714_016_00005035116212169427_016_00029950108064592316_115_00001224744871391589_0,
  016_00018973844733924148_015_00002153080850137975_117_00007684334065703917_016_00001919147738793301_016_00005820650271292868_116_00003338886116348349_015_00000816496580927726_0,
  016_00018973844733924148_015_00002153080850137975_016_00010778064888307737_116_00010419799820996123_016_00006134863894942243_116_00003338886116348349_115_00001224744871391589_0,
  016_00018973844733924148_015_00002085679964532446_117_00008799937765692141_118_00018750184458538297_016_00006606184330416307_116_00003338886116348349_015_00000816496580927726_0,
  016_00018973844733924148_015_00002085679964532446_115_00000651379246150975_017_00024207309729310825_016_00006920397954065683_116_00003338886116348349_015_00000816496580927726_0,
  016_00018973844733924148_015_00002153080850137975_117_00018282569215592054_016_00006934980080171117_015_00000723461157771506_016_00029950108064592316_115_00001224744871391589_0,
  016_00018973844733924148_015_00002153080850137975_117_00004337522965739242_117_00005887684318956068_016_00008020145636838499_116_00003338886116348349_015_00000816496580927726_0,
  016_00019473805070200358_016_00022204817357435416_116_00001772476736559794_115_00000570491742010098_016_00008334359260487876_116_00003338886116348349_115_00001224744871391589_0,
  016_00019473805070200358_016_00022204817357435416_117_00007126532215709803_017_00007153479768626296_015_00000880567969596194_116_00003338886116348349_015_00000816496580927726_0,
  016_00018973844733924148_016_00022204817357435416_115_00000740627542150033_016_00012151445715204048_016_00009119893319611315_116_00003338886116348349_015_00000816496580927726_0,
  016_00019473805070200358_016_00022204817357435416_016_00001574334363404881_116_00005002700892308083_016_00009434106943260692_116_00003338886116348349_115_00001224744871391589_0,
  016_00019473805070200358_014_00000228788262134907_116_00004171024691534478_016_00009141946310377358_016_00009905427378734756_116_00003338886116348349_115_00001224744871391589_0,
  016_00019473805070200358_014_00000228788262134907_116_00005398188761521525_016_00008540046429412019_015_00001037674781420882_116_00003338886116348349_015_00000816496580927726_0,
  016_00018973844733924148_015_00002153080850137975_116_00011310888371459118_016_00007837829901619122_016_00010690961437858195_116_00003338886116348349_015_00000816496580927726_0,
  016_00018973844733924148_015_00002153080850137975_116_00008912340416484434_015_00001024542942548048_016_00011005175061507573_016_00029950108064592316_115_00001224744871391589_0,
  015_00001847388439764765_015_00002085679964532446_115_00000740627542150033_016_00008640363076239577_015_00001179070912063101_116_00003338886116348349_015_00000816496580927726_0,
  015_00001847388439764765_015_00002085679964532446_016_00032978578518073416_116_00021956214206165097_016_00012104922744280389_116_00003338886116348349_115_00001224744871391589_0,
  015_00001847388439764765_015_00002085679964532446_116_00010251064856470304_016_00009141946310377358_016_00012576243179754452_116_00003338886116348349_015_00000816496580927726_0]

/-- lr/data.csv 5302-5401 -/
def dataCsv53 : List ℕ := [
  016_00018973844733924148_015_00002153080850137975_016_00009550900818320689_115_00001352961587265037_016_00012890456803403827_116_00003338886116348349_115_00001224744871391589_0,
  016_00018973844733924148_015_00002085679964532446_116_00012816953366443222_016_00015863161647823627_016_00013361777238877892_116_00003338886116348349_015_00000816496580927726_0,
  016_00019473805070200358_015_00002085679964532446_116_00002664959696550374_117_00027957346621018414_016_00013675990862527267_116_00003338886116348349_015_00000816496580927726_0,
  016_00019473805070200358_015_00002153080850137975_117_00032227615465444864_016_00004126113968999543_016_00013990204486176645_116_00003338886116348349_015_00000816496580927726_0,
  016_00019473805070200358_015_00002085679964532446_116_00006346451906511517_016_00009342579604032467_015_00001430441810982602_116_00003338886116348349_015_00000816496580927726_0,
  016_00019473805070200358_015_00002153080850137975_016_00007877495268338351_116_00010921383055133904_016_00014618631733475396_016_00029950108064592316_115_00001224744871391589_0,
  016_00019973765406476855_015_00002153080850137975_016_00004084442688378387_116_00008313150237617443_016_00015404165792598836_016_00029950108064592316_115_00001224744871391589_0,
  016_00019973765406476855_016_00022204817357435416_117_00004895324815733354_116_00005203334185963199_016_00016189699851722277_116_00003338886116348349_015_00000816496580927726_0,
  016_00019973765406476855_015_00002153080850137975_117_00032227615465444864_016_00002621364266586198_016_00016503913475371652_116_00003338886116348349_015_00000816496580927726_0,
  016_00019473805070200358_015_00002153080850137975_115_00000651379246150975_016_00008038463195274238_016_00016818127099021027_116_00003338886116348349_115_00001224744871391589_1,
  016_00018973844733924148_015_00002018279078926879_116_00006234891536512694_016_00003022630853896422_116_00016959837443286896_116_00003338886116348349_015_00000816496580927726_0,
  015_00001847388439764765_015_00001950878193321312_117_00043941454315321227_016_00009844162838170248_116_00016645623819637518_016_00029950108064592316_115_00001224744871391589_0,
  015_00001797392406137144_015_00001950878193321312_016_00018643070973224722_115_00001653911527747706_116_00015860089760514078_116_00003338886116348349_015_00000816496580927726_0,
  015_00001847388439764765_015_00001950878193321312_017_00015185541784054696_116_00007410300416169433_116_00015545876136864702_116_00003338886116348349_115_00001224744871391589_0,
  015_00001797392406137144_016_00018834773077157834_016_00009048879153325988_116_00009216000059065448_115_00001507455570139064_116_00003338886116348349_015_00000816496580927726_0,
  015_00001797392406137144_016_00018834773077157834_016_00009550900818320689_116_00012827399344857475_116_00014760342077741262_116_00003338886116348349_015_00000816496580927726_0,
  015_00001797392406137144_016_00018834773077157834_016_00008379516933333053_116_00006908717182031652_116_00014446128454091887_116_00003338886116348349_115_00001224744871391589_0,
  015_00001797392406137144_016_00018160764221102164_016_00005478947313363668_116_00007109350475686768_116_00013974808018617824_116_00003338886116348349_015_00000816496580927726_0,
  016_00017473963725094943_016_00017486755365046878_116_00002386058771553318_117_00009900350192058306_116_00013660594394968446_116_00003338886116348349_015_00000816496580927726_0,
  016_00017473963725094943_016_00018160764221102164_116_00007629396161497976_016_00007035296726998674_115_00001334638077131907_116_00003338886116348349_115_00001224744871391589_0,
  016_00016974003388818448_016_00018160764221102164_116_00009804823376475014_016_00005530547024585329_116_00012875060335845006_116_00003338886116348349_015_00000816496580927726_0,
  016_00016974003388818448_016_00018160764221102164_017_00020763560283995822_016_00009944479484997806_115_00001256084671219563_116_00003338886116348349_115_00001224744871391589_0,
  016_00016974003388818448_016_00018160764221102164_116_00010139504486471482_016_00015361578413685846_116_00012089526276721567_116_00003338886116348349_115_00001224744871391589_0,
  016_00016974003388818448_016_00018160764221102164_116_00007796736716496209_016_00008439729782584461_116_00011618205841247502_116_00003338886116348349_115_00001224744871391589_0,
  016_00016974003388818448_016_00018834773077157834_117_00007126532215709803_116_00009216000059065448_115_00001114688540577344_116_00003338886116348349_115_00001224744871391589_0,
  016_00017473963725094943_016_00018160764221102164_015_00000865841785833011_115_00001272708269802992_116_00010675564970299374_116_00003338886116348349_015_00000816496580927726_0,
  016_00017473963725094943_016_00018160764221102164_116_00006625352831508573_016_00009141946310377358_116_00010361351346649998_116_00003338886116348349_115_00001224744871391589_0,
  016_00017473963725094943_016_00018160764221102164_015_00003219765592808166_115_00002336064726175089_116_00009890030911175934_116_00003338886116348349_115_00001224744871391589_0,
  015_00001847388439764765_015_00001950878193321312_115_00000740627542150033_016_00001919147738793301_115_00000941871047570187_116_00003338886116348349_115_00001224744871391589_0,
  015_00001847388439764765_015_00002018279078926879_116_00004617266171529768_016_00005530547024585329_116_00008947390040227806_116_00003338886116348349_015_00000816496580927726_0,
  015_00001797392406137144_015_00001950878193321312_016_00002745718248392517_115_00000811251694396233_115_00000863317641657843_116_00003338886116348349_015_00000816496580927726_0,
  015_00001847388439764765_016_00018834773077157834_116_00005063507651525058_017_00045273805563097663_116_00008318962792929054_116_00003338886116348349_015_00000816496580927726_0,
  015_00001797392406137144_016_00018160764221102164_116_00007573615976498564_016_00006232763552378227_116_00008004749169279678_016_00029950108064592316_115_00001224744871391589_0,
  016_00017473963725094943_016_00017486755365046878_116_00007462055606499741_016_00011649862481066267_116_00007219215110156237_116_00003338886116348349_115_00001224744871391589_0,
  016_00016974003388818448_016_00017486755365046878_016_00065107965077734296_116_00030282495892852275_116_00006747894674682174_116_00003338886116348349_115_00001224744871391589_1,
  016_00016474043052542235_016_00016138737652935538_117_00018840371065586167_117_00010903516660333884_115_00000627657423920811_116_00003338886116348349_115_00001224744871391589_0,
  015_00001597408271626574_016_00016138737652935538_016_00006929232123348361_116_00006306817301066312_116_00005805253803734046_116_00003338886116348349_015_00000816496580927726_0,
  016_00016474043052542235_016_00017486755365046878_117_00031669813615450754_016_00004427063909482209_115_00000549104018008467_116_00003338886116348349_115_00001224744871391589_0,
  016_00016474043052542235_016_00016812746508991208_016_00007542814158341884_116_00007309983769341876_116_00005019719744610606_116_00003338886116348349_115_00001224744871391589_0,
  016_00016974003388818448_016_00018160764221102164_017_00030803993583889844_116_00007209667122514325_117_00045483993091365416_116_00003338886116348349_115_00001224744871391589_0,
  016_00017473963725094943_016_00018160764221102164_116_00008131417826492676_016_00009342579604032467_117_00040770788736624775_116_00003338886116348349_015_00000816496580927726_0,
  016_00017473963725094943_016_00018834773077157834_116_00007517835791499152_016_00015863161647823627_117_00037628652500131016_016_00029950108064592316_115_00001224744871391589_0,
  016_00017473963725094943_016_00018834773077157834_116_00009135461156482079_016_00005731180318240445_117_00029773311908896616_116_00003338886116348349_115_00001224744871391589_0,
  016_00017473963725094943_016_00018834773077157834_016_00003805541763381331_115_00000159193490017117_117_00025060107554155975_116_00003338886116348349_015_00000816496580927726_0,
  016_00016974003388818448_016_00018834773077157834_116_00009972163931473248_016_00010847329306445812_117_00021917971317662216_116_00003338886116348349_015_00000816496580927726_0,
  016_00017473963725094943_016_00018834773077157834_117_00008242135915698029_117_00005887684318956068_117_00018775835081168454_116_00003338886116348349_015_00000816496580927726_0,
  016_00016974003388818448_016_00018160764221102164_117_00002664117415756904_117_00045011176581703016_117_00015633698844674693_116_00003338886116348349_015_00000816496580927726_0,
  016_00016474043052542235_016_00018160764221102164_115_00001543862206141555_016_00023888493394028134_117_00012491562608180934_116_00003338886116348349_015_00000816496580927726_0,
  016_00016474043052542235_016_00017486755365046878_016_00004698024723371911_116_00005403967479618307_117_00009349426371687174_116_00003338886116348349_015_00000816496580927726_0,
  016_00016474043052542235_016_00018160764221102164_016_00005757848238360724_115_00000640713394789387_118_00062072901351934134_116_00003338886116348349_115_00001224744871391589_0,
  016_00016974003388818448_016_00018834773077157834_014_00000046422445383725_117_00049023842454805255_118_00014940857804527726_116_00003338886116348349_115_00001224744871391589_0,
  016_00017473963725094943_015_00001950878193321312_117_00004895324815733354_116_00005504284126445864_017_00003219118574287868_116_00003338886116348349_115_00001224744871391589_0,
  016_00016974003388818448_016_00018834773077157834_017_00028572786183913396_116_00003698584483549854_017_00007932322929028508_116_00003338886116348349_115_00001224744871391589_0,
  016_00016974003388818448_016_00018160764221102164_017_00028014984333919285_116_00006005867360583647_017_00012645527283769148_116_00003338886116348349_015_00000816496580927726_0,
  016_00016974003388818448_016_00017486755365046878_117_00042825850615333005_117_00024947847216191754_016_00001578766352026291_116_00003338886116348349_015_00000816496580927726_0,
  016_00016474043052542235_016_00016812746508991208_116_00011757129851454409_016_00009844162838170248_017_00018929799756756668_016_00029950108064592316_115_00001224744871391589_0,
  016_00016474043052542235_016_00017486755365046878_016_00008546857488331286_116_00011021699701961463_016_00002678514034799107_016_00029950108064592316_115_00001224744871391589_0,
  016_00016474043052542235_016_00016812746508991208_015_00002394218854816879_115_00001944829803547619_016_00003464048093922547_116_00003338886116348349_015_00000816496580927726_0,
  016_00016474043052542235_016_00017486755365046878_016_00016077182463251805_116_00015836898749684165_016_00003778261717571923_016_00029950108064592316_115_00001224744871391589_0,
  016_00016474043052542235_016_00017486755365046878_116_00007908297086495032_016_00007135613373826232_016_00004563795776695363_116_00003338886116348349_115_00001224744871391589_0,
  016_00016474043052542235_016_00017486755365046878_116_00004226804876533889_016_00004025797322171985_016_00005035116212169427_116_00003338886116348349_015_00000816496580927726_0,
  016_00016474043052542235_016_00018160764221102164_016_00005813628423360135_116_00009316316705893005_016_00005349329835818804_116_00003338886116348349_015_00000816496580927726_0,
  015_00001597408271626574_016_00017486755365046878_116_00014378798546426736_016_00017066961409754307_016_00005663543459468179_116_00003338886116348349_015_00000816496580927726_0,
  015_00001597408271626574_016_00016812746508991208_117_00011588947015662704_118_00008718519775782523_016_00005977757083117555_116_00003338886116348349_015_00000816496580927726_0,
  015_00001597408271626574_016_00017486755365046878_017_00034708606533848635_116_00004701750951825417_016_00006291970706766932_116_00003338886116348349_015_00000816496580927726_0,
  016_00015474122379989528_016_00017486755365046878_017_00005145108484160671_117_00035982678367222964_016_00006606184330416307_116_00003338886116348349_015_00000816496580927726_0,
  016_00015474122379989528_016_00017486755365046878_116_00007517835791499152_017_00006150313300350718_016_00006920397954065683_016_00029950108064592316_115_00001224744871391589_0,
  016_00015474122379989528_016_00016812746508991208_015_00001267459117828772_116_00013328982578995259_016_00007705932013189124_116_00003338886116348349_115_00001224744871391589_0,
  016_00015474122379989528_016_00016812746508991208_016_00007152352863346005_116_00010018533233685898_016_00008177252448663187_116_00003338886116348349_115_00001224744871391589_0,
  016_00014974162043713033_016_00016812746508991208_116_00001772476736559794_117_00020935181343089515_016_00008648572884137251_016_00029950108064592316_115_00001224744871391589_0,
  016_00014974162043713033_016_00016138737652935538_017_00049211454633695556_117_00028960513089293993_016_00009434106943260692_016_00029950108064592316_115_00001224744871391589_0,
  016_00014474201707436536_016_00015464728796880252_116_00005788650056517404_016_00007737513254791571_016_00010219641002384132_116_00003338886116348349_015_00000816496580927726_0,
  016_00014474201707436536_016_00015464728796880252_117_00016609163665609716_016_00006834663433343559_016_00010533854626033508_016_00029950108064592316_115_00001224744871391589_0,
  016_00014474201707436536_016_00015464728796880252_016_00015073139133262403_116_00015034365575063715_016_00011319388685156948_116_00003338886116348349_115_00001224744871391589_0,
  016_00014474201707436536_016_00015464728796880252_117_00013262352565645041_017_00008156646236901802_015_00001179070912063101_116_00003338886116348349_015_00000816496580927726_0,
  016_00014474201707436536_016_00015464728796880252_117_00004895324815733354_116_00005103017539135641_016_00012104922744280389_116_00003338886116348349_015_00000816496580927726_0,
  016_00013974241371160325_016_00015464728796880252_116_00011310888371459118_016_00017568544643892088_016_00012419136367929764_016_00029950108064592316_115_00001224744871391589_0,
  016_00014474201707436536_016_00016138737652935538_016_00027400560018132287_116_00020953047737889534_016_00013204670427053204_116_00003338886116348349_015_00000816496580927726_0,
  016_00014474201707436536_016_00016138737652935538_017_00006260712184148895_117_00030966846025845146_015_00001351888405070258_116_00003338886116348349_015_00000816496580927726_0,
  016_00014474201707436536_016_00016138737652935538_116_00005175068021523881_017_00017185144451381926_016_00013833097674351955_116_00003338886116348349_015_00000816496580927726_0,
  016_00013974241371160325_016_00015464728796880252_117_00024976191415521404_117_00024947847216191754_016_00014147311298001333_116_00003338886116348349_015_00000816496580927726_0,
  016_00013974241371160325_016_00016138737652935538_016_00006259869903355426_116_00013028032638512588_016_00014461524921650708_116_00003338886116348349_015_00000816496580927726_0,
  016_00014474201707436536_016_00016138737652935538_016_00008881538598327754_116_00006206500654238761_016_00014775738545300083_116_00003338886116348349_015_00000816496580927726_0,
  016_00013974241371160325_016_00015464728796880252_117_00019398172915580278_017_00003140813895523986_015_00001508995216894946_116_00003338886116348349_015_00000816496580927726_0,
  016_00014474201707436536_016_00016138737652935538_116_00006569572646509162_016_00006032130258723112_016_00015404165792598836_116_00003338886116348349_115_00001224744871391589_0,
  016_00014474201707436536_016_00015464728796880252_016_00012005228958294785_116_00013128349285340146_014_00000158754862280729_016_00029950108064592316_115_00001224744871391589_0,
  016_00014474201707436536_016_00014790719940824582_117_00038921237665374214_017_00020194643856208588_015_00001666102028719634_116_00003338886116348349_015_00000816496580927726_0,
  016_00013974241371160325_016_00014790719940824582_116_00005900210426516227_016_00010044796131825364_016_00016975233910845717_116_00003338886116348349_015_00000816496580927726_0,
  016_00013974241371160325_016_00015464728796880252_116_00005955990611515638_016_00009041629663549801_016_00017289447534495093_116_00003338886116348349_115_00001224744871391589_0,
  016_00013974241371160325_016_00015464728796880252_115_00000963748282147678_016_00009141946310377358_016_00017760767969969156_116_00003338886116348349_015_00000816496580927726_0,
  016_00013974241371160325_016_00015464728796880252_117_00031112011765456643_015_00000723593002065379_016_00018074981593618533_016_00029950108064592316_115_00001224744871391589_0,
  016_00013474281034883828_016_00014790719940824582_016_00001853235288401937_116_00005604600773273423_016_00018860515652741972_116_00003338886116348349_015_00000816496580927726_0,
  016_00013974241371160325_016_00014790719940824582_117_00032227615465444864_018_00021376474272484798_015_00001917472927639135_116_00003338886116348349_015_00000816496580927726_0,
  016_00013974241371160325_016_00015464728796880252_117_00036690030265397766_016_00002621364266586198_016_00019488942900040724_116_00003338886116348349_015_00000816496580927726_0,
  016_00013974241371160325_016_00015464728796880252_115_00001543862206141555_016_00030609708731474408_014_00000198031565236901_116_00003338886116348349_115_00001224744871391589_1,
  016_00013974241371160325_016_00016138737652935538_117_00005453126665727467_117_00031970012494120725_016_00020274476959164165_116_00003338886116348349_015_00000816496580927726_0,
  016_00013974241371160325_016_00016138737652935538_117_00008799937765692141_118_00028781849141293357_015_00002058869058281354_116_00003338886116348349_015_00000816496580927726_0,
  016_00013974241371160325_016_00015464728796880252_116_00006848473571506217_016_00002721680913413756_016_00020902904206462916_116_00003338886116348349_115_00001224744871391589_0,
  016_00014474201707436536_016_00016138737652935538_016_00021432080223195284_116_00016137848690166836_015_00002137422464193698_116_00003338886116348349_015_00000816496580927726_0,
  016_00013974241371160325_016_00016138737652935538_116_00007127374496503274_016_00013856828711272502_016_00021688438265586356_016_00029950108064592316_115_00001224744871391589_1]

/-- lr/data.csv 5402-5501 -/
def dataCsv54 : List ℕ := [
  016_00013474281034883828_016_00016138737652935538_116_00003445882286542132_016_00006333080199205777_016_00022473972324709797_116_00003338886116348349_015_00000816496580927726_1,
  016_00012974320698607618_016_00015464728796880252_115_00000472882654152859_016_00014859995179548064_015_00002278818594835917_116_00003338886116348349_115_00001224744871391589_1,
  016_00013474281034883828_016_00015464728796880252_116_00006569572646509162_016_00008540046429412019_116_00016959837443286896_116_00003338886116348349_015_00000816496580927726_0,
  016_00013474281034883828_016_00015464728796880252_016_00017806368198233555_115_00001463309898775349_116_00016645623819637518_116_00003338886116348349_015_00000816496580927726_0,
  016_00013974241371160325_016_00016812746508991208_115_00000651379246150975_016_00006132446905550669_116_00016331410195988143_016_00029950108064592316_115_00001224744871391589_0,
  016_00013474281034883828_016_00016138737652935538_116_00005286628391522703_016_00008740679723067134_116_00015545876136864702_116_00003338886116348349_015_00000816496580927726_0,
  016_00013474281034883828_016_00016138737652935538_116_00009972163931473248_016_00007837829901619122_116_00015231662513215327_116_00003338886116348349_015_00000816496580927726_0,
  016_00013474281034883828_016_00016138737652935538_016_00023161265958177033_116_00015234998868718825_115_00001491744888956595_116_00003338886116348349_015_00000816496580927726_0,
  016_00012974320698607618_016_00016138737652935538_016_00004976925648368967_116_00007009033828859209_116_00014603235265916574_116_00003338886116348349_015_00000816496580927726_0,
  016_00013474281034883828_016_00016138737652935538_116_00005900210426516227_017_00042264306158271003_114_00000142890216422672_116_00003338886116348349_015_00000816496580927726_0,
  016_00013474281034883828_016_00016812746508991208_116_00006792693386506806_016_00011549545834238708_116_00013974808018617824_116_00003338886116348349_115_00001224744871391589_0,
  016_00013974241371160325_016_00017486755365046878_117_00042825850615333005_117_00005887684318956068_116_00013503487583143758_116_00003338886116348349_015_00000816496580927726_0,
  016_00014474201707436536_016_00017486755365046878_116_00011757129851454409_016_00019976144167753438_116_00013189273959494383_116_00003338886116348349_015_00000816496580927726_0,
  016_00013474281034883828_016_00016812746508991208_117_00006568730365715691_117_00035982678367222964_116_00012875060335845006_016_00029950108064592316_115_00001224744871391589_0,
  016_00012974320698607618_016_00015464728796880252_117_00002664117415756904_115_00000570491742010098_116_00012089526276721567_116_00003338886116348349_015_00000816496580927726_0,
  016_00012974320698607618_016_00016138737652935538_116_00007183154681502685_015_00001034574607230803_115_00001177531265307219_116_00003338886116348349_115_00001224744871391589_0,
  016_00012974320698607618_016_00015464728796880252_016_00006761891568350127_116_00009717583293203229_116_00011303992217598127_116_00003338886116348349_015_00000816496580927726_0,
  016_00012974320698607618_016_00016138737652935538_116_00008521879121488555_016_00005831496965067996_116_00010989778593948751_116_00003338886116348349_015_00000816496580927726_0,
  016_00012974320698607618_016_00016138737652935538_115_00000785251690149562_016_00001618197798310635_116_00010675564970299374_116_00003338886116348349_015_00000816496580927726_0,
  016_00012974320698607618_016_00015464728796880252_116_00012147591146450287_016_00013455562123962277_116_00010361351346649998_116_00003338886116348349_015_00000816496580927726_0,
  016_00012974320698607618_016_00015464728796880252_116_00001493575811562738_116_00005805234066928531_116_00010047137723000623_116_00003338886116348349_015_00000816496580927726_0,
  016_00012974320698607618_016_00015464728796880252_017_00015185541784054696_117_00033976345430671806_116_00009732924099351247_116_00003338886116348349_115_00001224744871391589_0,
  016_00013474281034883828_016_00016138737652935538_115_00000651379246150975_017_00045273805563097663_116_00009261603663877183_116_00003338886116348349_115_00001224744871391589_0,
  016_00012974320698607618_016_00015464728796880252_016_00006036749163357781_116_00008212833590789884_116_00008790283228403118_116_00003338886116348349_015_00000816496580927726_0,
  016_00012974320698607618_016_00014790719940824582_116_00009023900786483257_016_00005530547024585329_116_00008476069604753742_116_00003338886116348349_015_00000816496580927726_0,
  016_00012474360362331123_016_00014790719940824582_015_00001317661284328242_116_00012125182817064584_116_00008161855981104366_116_00003338886116348349_015_00000816496580927726_0,
  016_00012974320698607618_016_00015464728796880252_017_00008491919584125346_017_00020194643856208588_115_00000784764235745499_116_00003338886116348349_015_00000816496580927726_0,
  016_00013474281034883828_016_00016138737652935538_116_00006458012276510339_016_00011950812421548933_116_00007533428733805614_116_00003338886116348349_015_00000816496580927726_0,
  016_00013474281034883828_016_00016138737652935538_116_00004784606726528002_016_00007336246667481341_116_00007219215110156237_116_00003338886116348349_015_00000816496580927726_0,
  016_00013974241371160325_016_00016138737652935538_017_00028572786183913396_116_00005604600773273423_116_00006905001486506862_116_00003338886116348349_015_00000816496580927726_0,
  016_00013974241371160325_016_00016812746508991208_015_00000865841785833011_114_00000116235995829268_116_00006590787862857486_116_00003338886116348349_015_00000816496580927726_0,
  016_00013974241371160325_016_00016812746508991208_117_00042825850615333005_016_00003423897441206646_115_00000627657423920811_116_00003338886116348349_015_00000816496580927726_0,
  016_00013974241371160325_016_00016138737652935538_116_00008187198011492087_016_00006232763552378227_116_00005962360615558734_116_00003338886116348349_015_00000816496580927726_0,
  016_00014474201707436536_016_00016812746508991208_017_00006260712184148895_016_00005530547024585329_116_00005648146991909357_116_00003338886116348349_015_00000816496580927726_0,
  016_00014474201707436536_016_00016812746508991208_016_00005032705833368378_116_00009617266646375675_116_00005333933368259982_116_00003338886116348349_015_00000816496580927726_0,
  016_00014974162043713033_016_00016812746508991208_117_00008242135915698029_017_00021197810324484165_116_00005019719744610606_116_00003338886116348349_115_00001224744871391589_0,
  016_00014474201707436536_016_00016812746508991208_015_00000782171508333894_116_00009115683412237894_117_00045483993091365416_116_00003338886116348349_115_00001224744871391589_0,
  016_00014474201707436536_016_00017486755365046878_116_00008075637641493265_016_00006433396846033335_117_00040770788736624775_116_00003338886116348349_115_00001224744871391589_0,
  016_00014474201707436536_016_00016812746508991208_016_00008044835823336586_116_00007911883650307214_117_00036057584381884134_116_00003338886116348349_015_00000816496580927726_0,
  016_00014974162043713033_016_00016812746508991208_017_00048653652783701445_116_00009516949999548118_117_00032915448145390375_116_00003338886116348349_015_00000816496580927726_0,
  016_00014974162043713033_016_00016812746508991208_016_00008881538598327754_116_00010018533233685898_117_00029773311908896616_016_00029950108064592316_115_00001224744871391589_0,
  016_00014974162043713033_016_00017486755365046878_116_00008187198011492087_016_00002922314207068864_117_00021917971317662216_116_00003338886116348349_115_00001224744871391589_0,
  016_00015474122379989528_016_00018160764221102164_116_00010362625226469127_016_00011850495774721375_117_00017204766962921575_116_00003338886116348349_015_00000816496580927726_0,
  016_00014974162043713033_016_00018160764221102164_116_00006290671721512106_016_00006834663433343559_117_00014062630726427813_116_00003338886116348349_115_00001224744871391589_0,
  016_00014974162043713033_016_00018160764221102164_016_00027065878908135823_115_00002015051456326909_117_00009349426371687174_116_00003338886116348349_015_00000816496580927726_0,
  016_00014974162043713033_016_00018834773077157834_016_00006092529348357192_116_00007911883650307214_118_00062072901351934134_116_00003338886116348349_115_00001224744871391589_0,
  016_00015474122379989528_015_00001950878193321312_117_00015493559965621492_018_00011344809589729025_118_00014940857804527726_116_00003338886116348349_015_00000816496580927726_0,
  016_00015474122379989528_016_00018834773077157834_116_00004115244506535067_016_00004126113968999543_018_00016480504560409875_116_00003338886116348349_015_00000816496580927726_0,
  016_00014974162043713033_016_00018160764221102164_017_00006818514034143008_017_00018188310919657433_017_00004790186692534748_116_00003338886116348349_015_00000816496580927726_0,
  016_00015474122379989528_016_00018834773077157834_015_00004407883533295625_115_00002496571361099179_017_00007932322929028508_116_00003338886116348349_015_00000816496580927726_0,
  016_00015474122379989528_016_00018834773077157834_116_00005788650056517404_016_00001919147738793301_017_00011074459165522269_016_00029950108064592316_115_00001224744871391589_0,
  016_00014974162043713033_016_00018160764221102164_116_00009916383746473837_016_00008840996369894685_017_00018929799756756668_116_00003338886116348349_015_00000816496580927726_0,
  016_00014974162043713033_016_00018160764221102164_017_00007934117734131232_117_00042001677176876356_016_00002207193599325043_116_00003338886116348349_115_00001224744871391589_0,
  016_00014974162043713033_016_00017486755365046878_116_00004896167096526824_017_00021197810324484165_016_00002678514034799107_116_00003338886116348349_015_00000816496580927726_0,
  016_00014974162043713033_016_00016812746508991208_117_00043383652465327116_018_00021376474272484798_016_00002992727658448483_116_00003338886116348349_015_00000816496580927726_0,
  016_00015474122379989528_016_00017486755365046878_015_00001987023504321177_115_00001653911527747706_016_00003306941282097859_116_00003338886116348349_115_00001224744871391589_0,
  016_00015474122379989528_016_00017486755365046878_016_00001574334363404881_116_00007109350475686768_016_00003778261717571923_116_00003338886116348349_115_00001224744871391589_0,
  016_00014974162043713033_016_00016812746508991208_017_00035266408383842746_116_00006306817301066312_016_00004249582153045987_116_00003338886116348349_115_00001224744871391589_0,
  016_00015474122379989528_016_00017486755365046878_117_00013820154415639155_017_00021197810324484165_016_00004720902588520051_116_00003338886116348349_015_00000816496580927726_0,
  016_00015474122379989528_016_00016812746508991208_116_00004784606726528002_016_00009141946310377358_016_00005035116212169427_116_00003338886116348349_015_00000816496580927726_0,
  016_00014974162043713033_016_00016138737652935538_117_00007126532215709803_117_00038992177772049624_016_00005349329835818804_116_00003338886116348349_115_00001224744871391589_0,
  016_00014474201707436536_016_00015464728796880252_116_00011143547816460884_016_00012151445715204048_016_00005820650271292868_116_00003338886116348349_115_00001224744871391589_0,
  016_00014474201707436536_016_00015464728796880252_016_00019535553933215304_116_00017241331805269953_016_00006291970706766932_116_00003338886116348349_015_00000816496580927726_0,
  016_00014474201707436536_016_00016138737652935538_017_00012396532534084133_116_00005203334185963199_016_00006606184330416307_116_00003338886116348349_015_00000816496580927726_0,
  016_00014474201707436536_016_00016138737652935538_016_00006706111383350716_116_00006908717182031652_016_00006920397954065683_116_00003338886116348349_115_00001224744871391589_0,
  016_00014474201707436536_016_00016138737652935538_116_00006402232091510928_016_00009543212897687582_016_00007391718389539748_116_00003338886116348349_015_00000816496580927726_0,
  016_00014474201707436536_016_00015464728796880252_116_00006290671721512106_016_00004728013849964882_016_00007705932013189124_116_00003338886116348349_115_00001224744871391589_0,
  016_00014474201707436536_016_00016138737652935538_116_00008689219676486789_016_00011449229187411152_016_00008177252448663187_116_00003338886116348349_015_00000816496580927726_0,
  016_00013974241371160325_016_00015464728796880252_016_00012563030808288898_116_00010118849880513456_016_00008491466072312563_116_00003338886116348349_015_00000816496580927726_0,
  016_00013474281034883828_016_00014790719940824582_115_00000556552931651976_015_00000252104761975864_015_00000880567969596194_116_00003338886116348349_115_00001224744871391589_0,
  016_00013474281034883828_016_00014790719940824582_016_00002578377693394283_117_00045011176581703016_016_00009277000131436004_116_00003338886116348349_115_00001224744871391589_0,
  016_00013474281034883828_016_00015464728796880252_116_00010753086521465005_015_00002128026057651167_016_00009748320566910068_116_00003338886116348349_015_00000816496580927726_0,
  016_00013974241371160325_016_00015464728796880252_116_00008521879121488555_016_00017869494584374754_016_00010062534190559445_116_00003338886116348349_015_00000816496580927726_0,
  016_00013474281034883828_016_00014790719940824582_116_00009470142266478546_016_00011850495774721375_015_00001037674781420882_116_00003338886116348349_015_00000816496580927726_0,
  016_00013474281034883828_016_00014116711084769296_116_00008968120601483845_016_00006934980080171117_016_00010690961437858195_116_00003338886116348349_115_00001224744871391589_0,
  016_00013474281034883828_016_00014790719940824582_116_00011310888371459118_016_00006834663433343559_015_00001116228187333226_116_00003338886116348349_015_00000816496580927726_0,
  016_00012974320698607618_016_00014116711084769296_116_00005230848206523292_017_00020194643856208588_016_00011476495496981636_116_00003338886116348349_115_00001224744871391589_0,
  016_00013474281034883828_016_00014116711084769296_016_00012507250623289485_115_00001352961587265037_014_00000119478159324557_116_00003338886116348349_015_00000816496580927726_0,
  016_00013474281034883828_016_00014790719940824582_016_00004028662503378976_116_00005905550713756088_016_00012262029556105076_116_00003338886116348349_015_00000816496580927726_0,
  016_00013474281034883828_016_00014116711084769296_017_00014069938084066472_116_00007911883650307214_016_00012576243179754452_116_00003338886116348349_115_00001224744871391589_0,
  016_00013474281034883828_016_00014116711084769296_115_00000339010210154272_115_00000399953442403252_016_00013047563615228517_016_00029950108064592316_115_00001224744871391589_0,
  016_00012974320698607618_016_00013442702228713626_015_00001351129395327889_116_00011523282936099244_016_00013833097674351955_116_00003338886116348349_015_00000816496580927726_0,
  016_00012974320698607618_016_00014116711084769296_016_00013567074138278299_114_00000132286659321677_016_00014147311298001333_116_00003338886116348349_015_00000816496580927726_0,
  016_00012974320698607618_016_00014116711084769296_016_00025727154468149953_116_00018144181626717961_016_00014461524921650708_116_00003338886116348349_115_00001224744871391589_0,
  016_00012474360362331123_016_00013442702228713626_016_00016021402278252395_116_00014733415634581044_016_00014932845357124773_116_00003338886116348349_115_00001224744871391589_0,
  016_00012974320698607618_016_00014116711084769296_116_00010864646891463827_016_00011047962600100927_016_00015404165792598836_116_00003338886116348349_015_00000816496580927726_0,
  016_00012974320698607618_016_00014790719940824582_117_00010473343315674478_016_00003022630853896422_016_00015718379416248212_116_00003338886116348349_015_00000816496580927726_0,
  016_00012974320698607618_016_00014116711084769296_016_00004028662503378976_118_00008718519775782523_015_00001603259303989759_116_00003338886116348349_115_00001224744871391589_0,
  016_00013474281034883828_016_00014790719940824582_117_00049519472815262355_016_00012151445715204048_016_00016503913475371652_116_00003338886116348349_015_00000816496580927726_1,
  016_00012974320698607618_016_00014116711084769296_117_00022187182165550842_116_00005002700892308083_016_00016818127099021027_116_00003338886116348349_015_00000816496580927726_0,
  016_00012974320698607618_016_00014116711084769296_116_00013988337251430858_016_00028603375794923283_116_00016959837443286896_116_00003338886116348349_015_00000816496580927726_1,
  016_00013474281034883828_016_00014790719940824582_115_00001052996578146736_016_00018672027758995209_116_00016645623819637518_116_00003338886116348349_115_00001224744871391589_0,
  016_00014474201707436536_016_00016138737652935538_115_00001142244874145794_016_00010947645953273368_116_00016174303384163455_116_00003338886116348349_115_00001224744871391589_0,
  016_00013974241371160325_016_00016138737652935538_116_00009079680971482668_016_00017167278056581863_115_00001570298294868939_116_00003338886116348349_015_00000816496580927726_0,
  016_00013974241371160325_016_00016138737652935538_116_00009525922451477957_016_00009543212897687582_116_00015388769325040015_116_00003338886116348349_015_00000816496580927726_0,
  016_00014474201707436536_016_00016812746508991208_116_00010139504486471482_015_00001506062847320318_115_00001507455570139064_016_00029950108064592316_115_00001224744871391589_0,
  016_00014474201707436536_016_00016812746508991208_014_00000214878604081947_116_00016037532043339278_114_00000142890216422672_116_00003338886116348349_115_00001224744871391589_0,
  016_00014474201707436536_016_00016812746508991208_017_00006818514034143008_019_00013131449069732513_116_00013817701206793134_116_00003338886116348349_115_00001224744871391589_0,
  016_00014474201707436536_016_00016812746508991208_015_00002031647652320706_116_00018846398154510855_115_00001334638077131907_116_00003338886116348349_115_00001224744871391589_0,
  016_00014474201707436536_016_00015464728796880252_116_00006792693386506806_016_00008740679723067134_116_00012875060335845006_016_00029950108064592316_115_00001224744871391589_0]

/-- lr/data.csv 5502-5601 -/
def dataCsv55 : List ℕ := [
  016_00013474281034883828_016_00014116711084769296_017_00034708606533848635_117_00048020675986529676_116_00012089526276721567_116_00003338886116348349_015_00000816496580927726_0,
  016_00013474281034883828_016_00014116711084769296_018_00023560992341901083_117_00024947847216191754_115_00001177531265307219_116_00003338886116348349_015_00000816496580927726_0,
  016_00012974320698607618_016_00014116711084769296_115_00000556552931651976_016_00012352079008859156_116_00011461099029422814_116_00003338886116348349_015_00000816496580927726_0,
  016_00012974320698607618_016_00013442702228713626_016_00006594551013351894_116_00010720749761478792_115_00001114688540577344_016_00029950108064592316_115_00001224744871391589_0,
  016_00013974241371160325_016_00014790719940824582_117_00045057058015309454_016_00011047962600100927_116_00010361351346649998_116_00003338886116348349_015_00000816496580927726_0,
  016_00013974241371160325_016_00014790719940824582_016_00011558987478299494_116_00012626766051202365_116_00010047137723000623_116_00003338886116348349_015_00000816496580927726_0,
  016_00014474201707436536_016_00014790719940824582_016_00007710154713340118_116_00009516949999548118_116_00009732924099351247_116_00003338886116348349_015_00000816496580927726_0,
  016_00013974241371160325_016_00014116711084769296_117_00010473343315674478_118_00008718519775782523_115_00000941871047570187_116_00003338886116348349_015_00000816496580927726_0,
  016_00014474201707436536_016_00014790719940824582_116_00009581702636477369_016_00015160945120030738_116_00009104496852052494_116_00003338886116348349_015_00000816496580927726_0,
  016_00013974241371160325_016_00014790719940824582_117_00016609163665609716_117_00034979511898947385_116_00008790283228403118_116_00003338886116348349_015_00000816496580927726_0,
  016_00013974241371160325_016_00014116711084769296_116_00006736913201507395_016_00011449229187411152_116_00008476069604753742_116_00003338886116348349_015_00000816496580927726_0,
  016_00013974241371160325_016_00014116711084769296_016_00023384386698174677_116_00019749247975958861_116_00008161855981104366_116_00003338886116348349_015_00000816496580927726_0,
  016_00013974241371160325_016_00014790719940824582_016_00007989055638337175_116_00009115683412237894_115_00000784764235745499_116_00003338886116348349_015_00000816496580927726_0,
  016_00013974241371160325_016_00014790719940824582_116_00004840386911527413_015_00001034574607230803_116_00007533428733805614_116_00003338886116348349_115_00001224744871391589_0,
  016_00013474281034883828_016_00013442702228713626_016_00016132962648251217_116_00016037532043339278_115_00000706210829833155_116_00003338886116348349_015_00000816496580927726_0,
  016_00013474281034883828_016_00013442702228713626_117_00030554209915462527_017_00015178811514830773_116_00006747894674682174_016_00029950108064592316_115_00001224744871391589_0,
  016_00012974320698607618_016_00013442702228713626_016_00007542814158341884_116_00007811567003479657_116_00005962360615558734_116_00003338886116348349_015_00000816496580927726_0,
  016_00012974320698607618_016_00012768693372657955_116_00005063507651525058_016_00009543212897687582_116_00005648146991909357_116_00003338886116348349_015_00000816496580927726_0,
  016_00012474360362331123_015_00001209468451660267_015_00002701009872313641_116_00020953047737889534_116_00005333933368259982_116_00003338886116348349_115_00001224744871391589_0,
  016_00012474360362331123_016_00012768693372657955_116_00004840386911527413_016_00007436563314308898_117_00048626129327859174_116_00003338886116348349_015_00000816496580927726_0,
  016_00012974320698607618_016_00013442702228713626_116_00002386058771553318_016_00005028963790447548_117_00045483993091365416_116_00003338886116348349_115_00001224744871391589_0,
  016_00012974320698607618_016_00012768693372657955_116_00007908297086495032_016_00006934980080171117_117_00040770788736624775_116_00003338886116348349_015_00000816496580927726_0,
  016_00012974320698607618_016_00012768693372657955_116_00004784606726528002_117_00008897183723782728_117_00037628652500131016_116_00003338886116348349_015_00000816496580927726_0,
  016_00012474360362331123_016_00012768693372657955_117_00008242135915698029_116_00005203334185963199_117_00034486516263637257_116_00003338886116348349_115_00001224744871391589_0,
  016_00012974320698607618_016_00012768693372657955_016_00005255826573366024_116_00009115683412237894_117_00029773311908896616_116_00003338886116348349_015_00000816496580927726_0,
  016_00012974320698607618_016_00013442702228713626_116_00009804823376475014_016_00005731180318240445_117_00026631175672402857_116_00003338886116348349_115_00001224744871391589_0,
  016_00012474360362331123_016_00012768693372657955_117_00010473343315674478_015_00000492864714361999_117_00021917971317662216_116_00003338886116348349_015_00000816496580927726_0,
  016_00012474360362331123_016_00012768693372657955_117_00003779721115745129_116_00001190668312860946_117_00018775835081168454_116_00003338886116348349_115_00001224744871391589_0,
  016_00011974400026054626_015_00001209468451660267_116_00008633439491487378_016_00010947645953273368_117_00014062630726427813_116_00003338886116348349_015_00000816496580927726_0,
  016_00011974400026054626_015_00001209468451660267_019_00012489183421365824_118_00008718519775782523_117_00010920494489934053_116_00003338886116348349_115_00001224744871391589_0,
  016_00011474439689778415_015_00001209468451660267_116_00010251064856470304_015_00001014511277865292_118_00062072901351934134_116_00003338886116348349_115_00001224744871391589_0,
  016_00011474439689778415_013_00000011420675660547_117_00019398172915580278_117_00026954180152742907_118_00014940857804527726_116_00003338886116348349_115_00001224744871391589_0,
  016_00011974400026054626_015_00001209468451660267_116_00003501662471541543_015_00000663403013968845_017_00003219118574287868_116_00003338886116348349_015_00000816496580927726_0,
  016_00011974400026054626_013_00000011420675660547_016_00010164482853314214_116_00013128349285340146_017_00006361254810781627_116_00003338886116348349_015_00000816496580927726_0,
  016_00011474439689778415_013_00000011420675660547_117_00024976191415521404_117_00028960513089293993_017_00009503391047275388_116_00003338886116348349_115_00001224744871391589_0,
  016_00011474439689778415_013_00000011420675660547_116_00004115244506535067_016_00003524214088034203_016_00001421659540201603_116_00003338886116348349_015_00000816496580927726_0,
  016_00011474439689778415_015_00001209468451660267_116_00009804823376475014_016_00014057462004927617_016_00001735873163850979_116_00003338886116348349_115_00001224744871391589_1,
  016_00011974400026054626_015_00001209468451660267_016_00006092529348357192_116_00010018533233685898_016_00002207193599325043_116_00003338886116348349_015_00000816496580927726_0,
  016_00011474439689778415_015_00001209468451660267_015_00001897775208322119_115_00001704069851161484_016_00002521407222974419_116_00003338886116348349_115_00001224744871391589_0,
  016_00011474439689778415_013_00000011420675660547_117_00031669813615450754_117_00009900350192058306_016_00002992727658448483_016_00029950108064592316_115_00001224744871391589_0,
  016_00011974400026054626_015_00001209468451660267_117_00025533993265515514_115_00000159193490017117_016_00003778261717571923_116_00003338886116348349_015_00000816496580927726_0,
  016_00011974400026054626_015_00001209468451660267_116_00005900210426516227_016_00002220097679275974_016_00004092475341221299_116_00003338886116348349_015_00000816496580927726_0,
  016_00011474439689778415_013_00000011420675660547_116_00007740956531496798_016_00001618197798310635_017_00044066889648706753_116_00003338886116348349_015_00000816496580927726_0,
  016_00011974400026054626_015_00001209468451660267_116_00015829083356411429_016_00019073294346305432_016_00004720902588520051_116_00003338886116348349_015_00000816496580927726_0,
  016_00010974479353501918_013_00000011420675660547_117_00037805633965385993_016_00005630863671412888_016_00005035116212169427_116_00003338886116348349_015_00000816496580927726_0,
  016_00010974479353501918_016_00010746666804491714_116_00010139504486471482_017_00042264306158271003_016_00005349329835818804_016_00029950108064592316_115_00001224744871391589_0,
  016_00011474439689778415_013_00000011420675660547_116_00004784606726528002_017_00012169312110004112_016_00006134863894942243_116_00003338886116348349_015_00000816496580927726_0,
  016_00011474439689778415_013_00000011420675660547_019_00068269368420777075_115_00001112201634878902_016_00006449077518591619_116_00003338886116348349_115_00001224744871391589_0,
  016_00011474439689778415_015_00001209468451660267_017_00036939813933825083_117_00048020675986529676_016_00006920397954065683_116_00003338886116348349_015_00000816496580927726_0,
  016_00011474439689778415_016_00012768693372657955_115_00000919124134148149_016_00012452395655686714_015_00000723461157771506_016_00029950108064592316_115_00001224744871391589_0,
  016_00011474439689778415_016_00012768693372657955_116_00001716696551560383_017_00023204143261035248_016_00008020145636838499_116_00003338886116348349_115_00001224744871391589_0,
  016_00011974400026054626_016_00012768693372657955_115_00000963748282147678_016_00007336246667481341_016_00008491466072312563_016_00029950108064592316_115_00001224744871391589_0,
  016_00012474360362331123_016_00013442702228713626_016_00002243696583397816_117_00043004843645151863_016_00009277000131436004_016_00029950108064592316_115_00001224744871391589_0,
  016_00012474360362331123_016_00012768693372657955_116_00012984293921441454_015_00001977551087409833_016_00010062534190559445_116_00003338886116348349_015_00000816496580927726_0,
  016_00012474360362331123_016_00013442702228713626_117_00009915541465680366_018_00021376474272484798_015_00001037674781420882_116_00003338886116348349_115_00001224744871391589_0,
  016_00012474360362331123_016_00013442702228713626_116_00007127374496503274_017_00042264306158271003_016_00010848068249682883_116_00003338886116348349_015_00000816496580927726_0,
  016_00012474360362331123_016_00013442702228713626_116_00010139504486471482_017_00020194643856208588_015_00001116228187333226_016_00029950108064592316_115_00001224744871391589_0,
  016_00012474360362331123_016_00013442702228713626_116_00005732869871517993_016_00003524214088034203_014_00000119478159324557_116_00003338886116348349_115_00001224744871391589_0,
  016_00012474360362331123_016_00012768693372657955_017_00007934117734131232_018_00011344809589729025_016_00012419136367929764_116_00003338886116348349_015_00000816496580927726_0,
  016_00012474360362331123_016_00013442702228713626_116_00004896167096526824_016_00003223264147551537_015_00001273334999157914_116_00003338886116348349_115_00001224744871391589_0,
  016_00011974400026054626_016_00012768693372657955_018_00012404955342018832_117_00020935181343089515_016_00013204670427053204_116_00003338886116348349_015_00000816496580927726_0,
  016_00011474439689778415_013_00000011420675660547_116_00011031987446462062_016_00006333080199205777_015_00001351888405070258_116_00003338886116348349_115_00001224744871391589_0,
  016_00011474439689778415_013_00000011420675660547_016_00006092529348357192_116_00007911883650307214_016_00013990204486176645_116_00003338886116348349_015_00000816496580927726_0,
  016_00011474439689778415_013_00000011420675660547_016_00005646287868361902_116_00008513783531272554_015_00001430441810982602_116_00003338886116348349_115_00001224744871391589_0,
  016_00011974400026054626_015_00001209468451660267_116_00006848473571506217_016_00006132446905550669_016_00014775738545300083_116_00003338886116348349_015_00000816496580927726_0,
  016_00011974400026054626_016_00012768693372657955_016_00007375473603343651_116_00010118849880513456_015_00001508995216894946_116_00003338886116348349_015_00000816496580927726_0,
  016_00011974400026054626_016_00013442702228713626_117_00045614859865303564_016_00005530547024585329_016_00015404165792598836_116_00003338886116348349_015_00000816496580927726_0,
  016_00012474360362331123_016_00013442702228713626_116_00005230848206523292_016_00014859995179548064_116_00016959837443286896_116_00003338886116348349_115_00001224744871391589_0,
  016_00012474360362331123_016_00014116711084769296_117_00002664117415756904_117_00013913016065160544_115_00001648851700781283_116_00003338886116348349_015_00000816496580927726_0,
  016_00011974400026054626_016_00013442702228713626_116_00001716696551560383_117_00030966846025845146_116_00016174303384163455_116_00003338886116348349_015_00000816496580927726_0,
  016_00011974400026054626_016_00014116711084769296_116_00002609179511550963_016_00007737513254791571_116_00015860089760514078_116_00003338886116348349_115_00001224744871391589_0,
  016_00011974400026054626_016_00013442702228713626_017_00012954334384078245_117_00020935181343089515_116_00015388769325040015_116_00003338886116348349_015_00000816496580927726_0,
  016_00011974400026054626_016_00013442702228713626_018_00034717029341783334_117_00035982678367222964_115_00001507455570139064_116_00003338886116348349_015_00000816496580927726_0,
  016_00012474360362331123_016_00014790719940824582_016_00011112745998304205_116_00014733415634581044_116_00014760342077741262_116_00003338886116348349_015_00000816496580927726_0,
  016_00011974400026054626_016_00013442702228713626_116_00013040074106440867_016_00009141946310377358_116_00014446128454091887_116_00003338886116348349_015_00000816496580927726_0,
  016_00011974400026054626_016_00013442702228713626_116_00003445882286542132_118_00028781849141293357_116_00014131914830442511_016_00029950108064592316_115_00001224744871391589_0,
  016_00011974400026054626_016_00013442702228713626_117_00045614859865303564_016_00003423897441206646_115_00001334638077131907_016_00029950108064592316_115_00001224744871391589_0,
  016_00011974400026054626_016_00014116711084769296_116_00004673046356529179_017_00004143980363799563_115_00001256084671219563_116_00003338886116348349_015_00000816496580927726_0,
  016_00012474360362331123_016_00014790719940824582_017_00019647956584007595_117_00012909849596884967_116_00012246633088546255_116_00003338886116348349_015_00000816496580927726_0,
  016_00012974320698607618_016_00014790719940824582_016_00008714198043329521_116_00012927715991685031_116_00011932419464896877_116_00003338886116348349_015_00000816496580927726_0,
  016_00012974320698607618_016_00014790719940824582_117_00045057058015309454_116_00001190668312860946_116_00011618205841247502_116_00003338886116348349_115_00001224744871391589_0,
  016_00012474360362331123_016_00014116711084769296_115_00000472882654152859_016_00007637196607964014_115_00001114688540577344_116_00003338886116348349_115_00001224744871391589_0,
  016_00012474360362331123_016_00013442702228713626_016_00028627724088119337_115_00002115368103154465_116_00010675564970299374_116_00003338886116348349_015_00000816496580927726_0,
  016_00012474360362331123_016_00013442702228713626_016_00007487033973342473_116_00010118849880513456_116_00010361351346649998_116_00003338886116348349_015_00000816496580927726_0,
  016_00011974400026054626_016_00012768693372657955_017_00021879163983984046_116_00010118849880513456_116_00010047137723000623_116_00003338886116348349_015_00000816496580927726_0,
  016_00012474360362331123_016_00013442702228713626_016_00005757848238360724_116_00010921383055133904_116_00009732924099351247_116_00003338886116348349_115_00001224744871391589_0,
  016_00011974400026054626_015_00001209468451660267_017_00010165325134107683_116_00008513783531272554_116_00009261603663877183_116_00003338886116348349_115_00001224744871391589_0,
  016_00012474360362331123_016_00012768693372657955_117_00032227615465444864_016_00002922314207068864_116_00008790283228403118_116_00003338886116348349_015_00000816496580927726_0,
  016_00012474360362331123_015_00001209468451660267_017_00015185541784054696_117_00023944680747916175_116_00008476069604753742_116_00003338886116348349_115_00001224744871391589_0,
  016_00012474360362331123_016_00012768693372657955_116_00013430535401436745_016_00017568544643892088_116_00008004749169279678_116_00003338886116348349_115_00001224744871391589_0,
  016_00012474360362331123_016_00012768693372657955_116_00011087767631461474_016_00019474560933615657_116_00007533428733805614_116_00003338886116348349_115_00001224744871391589_0,
  016_00012474360362331123_016_00013442702228713626_017_00019647956584007595_116_00006206500654238761_115_00000706210829833155_116_00003338886116348349_015_00000816496580927726_0,
  016_00012474360362331123_016_00012768693372657955_116_00005677089686518582_016_00006734346786516008_116_00006747894674682174_116_00003338886116348349_015_00000816496580927726_0,
  016_00012974320698607618_016_00012768693372657955_116_00010306845041469714_016_00008038463195274238_116_00006433681051032798_116_00003338886116348349_015_00000816496580927726_0,
  016_00012974320698607618_016_00012768693372657955_015_00000330352009838663_117_00045011176581703016_116_00006119467427383422_116_00003338886116348349_015_00000816496580927726_0,
  016_00013474281034883828_016_00013442702228713626_015_00002260346410818292_116_00018645764860855742_116_00005805253803734046_116_00003338886116348349_115_00001224744871391589_0,
  016_00013474281034883828_016_00013442702228713626_118_00004329100157804543_117_00032973178962396227_116_00005333933368259982_116_00003338886116348349_115_00001224744871391589_0,
  016_00013474281034883828_016_00013442702228713626_117_00021071578465562615_117_00029963679557569567_117_00048626129327859174_116_00003338886116348349_015_00000816496580927726_0,
  016_00013974241371160325_016_00014116711084769296_116_00005453968946520936_016_00012151445715204048_117_00045483993091365416_116_00003338886116348349_015_00000816496580927726_0,
  016_00013474281034883828_016_00013442702228713626_016_00006315650088354837_116_00009015366765410335_117_00042341856854871657_116_00003338886116348349_115_00001224744871391589_0]

/-- lr/data.csv 5602-5701 -/
def dataCsv56 : List ℕ := [
  016_00013974241371160325_016_00014116711084769296_116_00002888080436548019_117_00033976345430671806_117_00037628652500131016_116_00003338886116348349_015_00000816496580927726_0,
  016_00014474201707436536_016_00014790719940824582_017_00036939813933825083_116_00006106184007411204_117_00034486516263637257_116_00003338886116348349_015_00000816496580927726_0,
  016_00014474201707436536_016_00014116711084769296_115_00001142244874145794_016_00014759678532720513_115_00000313443800271435_116_00003338886116348349_015_00000816496580927726_0,
  016_00014474201707436536_016_00014790719940824582_116_00011087767631461474_016_00017869494584374754_117_00028202243790649734_116_00003338886116348349_015_00000816496580927726_0,
  016_00014474201707436536_016_00014790719940824582_117_00014377956265633265_117_00021938347811365091_117_00025060107554155975_116_00003338886116348349_015_00000816496580927726_0,
  016_00014474201707436536_016_00014790719940824582_117_00016051361815615603_017_00014175645046555194_117_00021917971317662216_116_00003338886116348349_015_00000816496580927726_0,
  016_00014474201707436536_016_00014790719940824582_016_00010610724333309502_114_00000164387986306495_117_00018775835081168454_116_00003338886116348349_015_00000816496580927726_0,
  016_00014474201707436536_016_00014790719940824582_016_00011503207293300084_116_00014532782340925934_117_00015633698844674693_116_00003338886116348349_115_00001224744871391589_0,
  016_00015474122379989528_016_00015464728796880252_016_00004698024723371911_116_00008413466884444997_117_00010920494489934053_116_00003338886116348349_115_00001224744871391589_0,
  016_00015474122379989528_016_00016138737652935538_116_00008968120601483845_015_00001014511277865292_118_00062072901351934134_116_00003338886116348349_115_00001224744871391589_0,
  016_00015474122379989528_016_00016138737652935538_116_00007350495236500919_017_00012169312110004112_118_00014940857804527726_116_00003338886116348349_015_00000816496580927726_0,
  016_00014974162043713033_016_00015464728796880252_016_00007542814158341884_116_00010520116467823681_018_00016480504560409875_116_00003338886116348349_115_00001224744871391589_0,
  016_00014974162043713033_016_00015464728796880252_117_00029438606215474306_017_00024207309729310825_017_00006361254810781627_116_00003338886116348349_015_00000816496580927726_0,
  016_00014974162043713033_016_00015464728796880252_117_00031112011765456643_116_00001190668312860946_017_00009503391047275388_116_00003338886116348349_115_00001224744871391589_0,
  016_00014974162043713033_016_00014790719940824582_016_00004753804908371322_116_00011222332995616573_016_00001421659540201603_016_00029950108064592316_115_00001224744871391589_0,
  016_00014974162043713033_016_00014790719940824582_116_00015717522986412606_016_00031412241906094858_016_00002207193599325043_116_00003338886116348349_115_00001224744871391589_1,
  016_00014974162043713033_016_00015464728796880252_116_00003278541731543898_017_00014175645046555194_016_00002678514034799107_116_00003338886116348349_015_00000816496580927726_0,
  016_00015474122379989528_016_00016138737652935538_116_00007517835791499152_015_00002158121051699434_016_00002992727658448483_116_00003338886116348349_015_00000816496580927726_1,
  016_00014974162043713033_016_00016138737652935538_016_00005925188793358959_116_00010419799820996123_016_00003306941282097859_116_00003338886116348349_115_00001224744871391589_0,
  016_00014974162043713033_016_00015464728796880252_016_00021934101888189987_116_00018144181626717961_016_00003778261717571923_116_00003338886116348349_015_00000816496580927726_0,
  016_00014974162043713033_016_00015464728796880252_118_00032219192657510165_117_00014916182533436123_016_00004092475341221299_116_00003338886116348349_015_00000816496580927726_0,
  016_00014474201707436536_016_00014790719940824582_116_00013765216511433214_015_00001445872859223784_017_00044066889648706753_116_00003338886116348349_115_00001224744871391589_0,
  016_00014474201707436536_016_00014790719940824582_017_00017974551034025257_017_00006150313300350718_017_00048780094003447394_116_00003338886116348349_015_00000816496580927726_0,
  016_00014474201707436536_016_00015464728796880252_017_00021879163983984046_116_00003698584483549854_016_00005192223023994115_116_00003338886116348349_015_00000816496580927726_0,
  016_00013974241371160325_016_00014790719940824582_117_00038921237665374214_117_00030966846025845146_016_00005506436647643491_116_00003338886116348349_115_00001224744871391589_0,
  016_00013474281034883828_016_00014116711084769296_016_00010554944148310093_116_00015636265456029053_016_00005977757083117555_116_00003338886116348349_015_00000816496580927726_0,
  016_00013474281034883828_016_00014116711084769296_017_00035824210233836856_116_00007510617062996991_016_00006291970706766932_016_00029950108064592316_115_00001224744871391589_0,
  016_00013474281034883828_016_00014116711084769296_016_00003247739913387218_118_00018750184458538297_016_00007077504765890371_116_00003338886116348349_015_00000816496580927726_0,
  016_00013474281034883828_016_00014116711084769296_016_00008323736748333642_116_00008012200297134773_016_00007391718389539748_116_00003338886116348349_015_00000816496580927726_0,
  016_00013474281034883828_016_00014790719940824582_116_00007462055606499741_016_00011449229187411152_016_00007705932013189124_116_00003338886116348349_015_00000816496580927726_0,
  016_00013974241371160325_016_00014790719940824582_017_00042517832433766206_116_00007109350475686768_016_00008020145636838499_116_00003338886116348349_115_00001224744871391589_0,
  016_00013974241371160325_016_00014790719940824582_117_00013262352565645041_117_00031970012494120725_016_00008491466072312563_116_00003338886116348349_015_00000816496580927726_0,
  016_00013474281034883828_016_00014790719940824582_116_00009079680971482668_016_00012853662242996937_015_00000880567969596194_116_00003338886116348349_015_00000816496580927726_0,
  016_00013474281034883828_016_00014790719940824582_116_00005119287836524469_016_00007536879961136456_016_00009119893319611315_116_00003338886116348349_015_00000816496580927726_0,
  016_00012974320698607618_016_00014790719940824582_116_00010362625226469127_016_00016565378175616523_016_00009434106943260692_116_00003338886116348349_115_00001224744871391589_0,
  016_00012974320698607618_016_00014116711084769296_117_00020513776615568505_016_00007336246667481341_016_00009905427378734756_116_00003338886116348349_015_00000816496580927726_0,
  016_00012974320698607618_016_00013442702228713626_116_00005119287836524469_016_00005530547024585329_016_00010219641002384132_116_00003338886116348349_015_00000816496580927726_0,
  016_00012474360362331123_016_00013442702228713626_116_00002888080436548019_016_00006132446905550669_016_00010533854626033508_116_00003338886116348349_115_00001224744871391589_0,
  016_00012974320698607618_016_00014116711084769296_117_00011031145165668592_116_00001892884840653836_016_00011005175061507573_116_00003338886116348349_015_00000816496580927726_0,
  016_00012974320698607618_016_00014116711084769296_016_00007208133048345416_116_00011322649642444131_016_00011319388685156948_116_00003338886116348349_015_00000816496580927726_0,
  016_00012974320698607618_016_00014116711084769296_116_00006625352831508573_016_00011649862481066267_016_00011633602308806323_116_00003338886116348349_015_00000816496580927726_0,
  016_00012974320698607618_016_00014116711084769296_117_00036690030265397766_117_00026954180152742907_014_00000119478159324557_116_00003338886116348349_015_00000816496580927726_0,
  016_00012474360362331123_016_00013442702228713626_116_00002441838956552729_116_00001190668312860946_016_00012262029556105076_116_00003338886116348349_015_00000816496580927726_0,
  016_00012474360362331123_016_00013442702228713626_017_00019647956584007595_017_00020194643856208588_016_00012576243179754452_116_00003338886116348349_015_00000816496580927726_0,
  016_00012474360362331123_016_00013442702228713626_116_00008689219676486789_016_00011348912540583593_016_00012890456803403827_116_00003338886116348349_015_00000816496580927726_0,
  016_00012474360362331123_016_00013442702228713626_017_00029130588033907506_116_00010620433114651238_016_00013204670427053204_116_00003338886116348349_115_00001224744871391589_0,
  016_00011974400026054626_015_00001209468451660267_016_00005869408608359546_117_00027957346621018414_016_00013675990862527267_116_00003338886116348349_115_00001224744871391589_0,
  016_00012474360362331123_015_00001209468451660267_015_00004636582291793212_116_00025366980198302014_016_00014147311298001333_016_00029950108064592316_115_00001224744871391589_0,
  016_00012474360362331123_016_00012768693372657955_116_00007685176346497387_015_00000492864714361999_016_00014932845357124773_116_00003338886116348349_015_00000816496580927726_0,
  016_00012474360362331123_016_00012768693372657955_115_00000696003394150504_016_00011649862481066267_016_00015247058980774149_116_00003338886116348349_115_00001224744871391589_0,
  016_00012474360362331123_016_00013442702228713626_116_00004617266171529768_016_00006333080199205777_016_00015718379416248212_116_00003338886116348349_015_00000816496580927726_0,
  016_00012474360362331123_016_00013442702228713626_116_00005119287836524469_016_00005731180318240445_015_00001603259303989759_116_00003338886116348349_115_00001224744871391589_0,
  016_00011974400026054626_015_00001209468451660267_015_00001049916396331068_115_00001352961587265037_016_00016503913475371652_116_00003338886116348349_015_00000816496580927726_0,
  016_00011974400026054626_013_00000011420675660547_116_00002441838956552729_117_00031970012494120725_016_00016818127099021027_116_00003338886116348349_015_00000816496580927726_0,
  016_00011474439689778415_016_00010746666804491714_018_00029139010841842207_115_00000570491742010098_116_00016959837443286896_116_00003338886116348349_015_00000816496580927726_0,
  016_00011474439689778415_016_00010072657948436043_116_00008466098936489144_016_00007336246667481341_116_00016645623819637518_116_00003338886116348349_015_00000816496580927726_0,
  016_00011474439689778415_016_00010072657948436043_116_00012426492071447344_015_00000723593002065379_116_00016331410195988143_116_00003338886116348349_115_00001224744871391589_0,
  016_00011474439689778415_016_00010072657948436043_016_00014236436358271234_116_00013930882459960594_116_00015860089760514078_116_00003338886116348349_015_00000816496580927726_0,
  016_00010974479353501918_016_00009398649092380373_116_00009302801711480313_016_00015160945120030738_116_00015545876136864702_116_00003338886116348349_115_00001224744871391589_0,
  016_00011474439689778415_016_00010072657948436043_016_00007542814158341884_116_00010018533233685898_115_00001507455570139064_116_00003338886116348349_115_00001224744871391589_0,
  016_00010974479353501918_016_00009398649092380373_116_00003445882286542132_017_00017185144451381926_116_00014603235265916574_116_00003338886116348349_015_00000816496580927726_0,
  016_00010974479353501918_016_00009398649092380373_116_00007908297086495032_016_00013054295536652054_114_00000142890216422672_116_00003338886116348349_015_00000816496580927726_0,
  016_00010974479353501918_016_00010072657948436043_016_00004307563428376032_116_00006005867360583647_116_00013974808018617824_116_00003338886116348349_015_00000816496580927726_0,
  016_00011474439689778415_016_00010072657948436043_117_00004895324815733354_017_00023204143261035248_116_00013660594394968446_116_00003338886116348349_115_00001224744871391589_0,
  016_00010974479353501918_016_00009398649092380373_019_00012489183421365824_117_00049023842454805255_116_00013189273959494383_116_00003338886116348349_115_00001224744871391589_0,
  016_00011474439689778415_016_00009398649092380373_016_00017081225793241208_116_00018144181626717961_116_00012717953524020318_116_00003338886116348349_015_00000816496580927726_0,
  016_00010974479353501918_016_00009398649092380373_115_00000606755098151446_015_00000312294750072398_116_00012403739900370943_116_00003338886116348349_015_00000816496580927726_0,
  016_00010974479353501918_016_00009398649092380373_015_00003018956926810285_116_00020852731091061982_116_00012089526276721567_116_00003338886116348349_015_00000816496580927726_0,
  016_00010974479353501918_016_00009398649092380373_116_00005955990611515638_016_00005329913730930215_115_00001177531265307219_116_00003338886116348349_115_00001224744871391589_0,
  016_00010974479353501918_016_00010072657948436043_116_00003334321916543309_117_00004884517850680491_116_00011303992217598127_116_00003338886116348349_115_00001224744871391589_0,
  016_00010974479353501918_016_00010072657948436043_116_00006402232091510928_016_00005229597084102664_116_00010832671782124061_116_00003338886116348349_015_00000816496580927726_0,
  016_00010974479353501918_016_00010746666804491714_117_00002664117415756904_117_00027957346621018414_116_00010518458158474686_016_00029950108064592316_115_00001224744871391589_0,
  016_00010474519017225707_016_00010746666804491714_016_00009048879153325988_115_00001383056581313304_116_00009732924099351247_016_00029950108064592316_115_00001224744871391589_0,
  016_00010974479353501918_016_00010746666804491714_117_00042825850615333005_016_00010044796131825364_116_00008947390040227806_116_00003338886116348349_015_00000816496580927726_0,
  016_00010974479353501918_013_00000011420675660547_116_00008131417826492676_015_00000252104761975864_115_00000863317641657843_116_00003338886116348349_115_00001224744871391589_0,
  016_00011474439689778415_013_00000011420675660547_116_00004784606726528002_015_00000252104761975864_116_00008161855981104366_116_00003338886116348349_115_00001224744871391589_0,
  016_00011474439689778415_015_00001209468451660267_017_00014627739934060582_117_00021938347811365091_116_00007690535545630302_116_00003338886116348349_015_00000816496580927726_0,
  016_00011474439689778415_015_00001209468451660267_116_00014378798546426736_016_00011750179127893825_116_00007376321921980926_116_00003338886116348349_015_00000816496580927726_0,
  016_00010974479353501918_013_00000011420675660547_016_00002522597508394872_117_00037989011303774045_115_00000706210829833155_116_00003338886116348349_115_00001224744871391589_0,
  016_00010974479353501918_013_00000011420675660547_116_00004059464321535655_016_00009041629663549801_116_00006590787862857486_116_00003338886116348349_115_00001224744871391589_0,
  016_00010974479353501918_016_00010746666804491714_116_00008521879121488555_016_00010546379365963146_116_00006119467427383422_116_00003338886116348349_115_00001224744871391589_0,
  016_00010974479353501918_016_00010746666804491714_116_00008689219676486789_016_00004326747262654651_116_00005648146991909357_116_00003338886116348349_015_00000816496580927726_0,
  016_00011474439689778415_016_00010746666804491714_116_00005453968946520936_016_00013957145358100058_116_00005333933368259982_016_00029950108064592316_115_00001224744871391589_0,
  016_00010974479353501918_016_00010746666804491714_016_00002968838988390162_117_00022941514279640599_117_00045483993091365416_116_00003338886116348349_115_00001224744871391589_0,
  016_00010974479353501918_016_00010746666804491714_017_00030803993583889844_117_00031970012494120725_117_00040770788736624775_016_00029950108064592316_115_00001224744871391589_0,
  016_00010974479353501918_016_00010072657948436043_117_00031669813615450754_016_00005630863671412888_117_00032915448145390375_116_00003338886116348349_015_00000816496580927726_0,
  016_00010974479353501918_016_00010746666804491714_016_00006650331198351305_116_00008614100178100111_117_00029773311908896616_116_00003338886116348349_015_00000816496580927726_0,
  016_00011474439689778415_013_00000011420675660547_016_00035209785918049863_116_00021855897559337545_117_00026631175672402857_116_00003338886116348349_015_00000816496580927726_0,
  016_00011474439689778415_013_00000011420675660547_116_00006458012276510339_016_00004627697203137324_117_00023489039435909095_116_00003338886116348349_115_00001224744871391589_0,
  016_00011974400026054626_015_00001209468451660267_018_00023560992341901083_116_00008915050118582778_117_00018775835081168454_116_00003338886116348349_015_00000816496580927726_0,
  016_00011474439689778415_015_00001209468451660267_116_00005788650056517404_016_00004828330496792433_117_00015633698844674693_116_00003338886116348349_015_00000816496580927726_0,
  016_00011974400026054626_015_00001209468451660267_116_00012203371331449697_016_00016465061528788967_117_00012491562608180934_116_00003338886116348349_015_00000816496580927726_0,
  016_00011974400026054626_016_00012768693372657955_116_00012593832626445576_016_00015762845000996077_117_00009349426371687174_116_00003338886116348349_115_00001224744871391589_0,
  016_00011974400026054626_015_00001209468451660267_116_00004784606726528002_017_00021197810324484165_118_00046362220169465326_116_00003338886116348349_115_00001224744871391589_0,
  016_00011974400026054626_015_00001209468451660267_116_00001716696551560383_016_00005731180318240445_019_00007698233779410749_116_00003338886116348349_015_00000816496580927726_0,
  016_00011974400026054626_015_00001209468451660267_116_00004896167096526824_017_00020194643856208588_017_00003219118574287868_116_00003338886116348349_015_00000816496580927726_0,
  016_00012474360362331123_016_00012768693372657955_016_00003136179543388396_116_00005403967479618307_017_00006361254810781627_016_00029950108064592316_115_00001224744871391589_0,
  016_00012474360362331123_016_00012768693372657955_116_00010306845041469714_016_00009442896250860024_016_00001421659540201603_116_00003338886116348349_015_00000816496580927726_0,
  016_00012474360362331123_016_00012768693372657955_116_00015271281506417316_015_00001987582752092588_016_00001735873163850979_116_00003338886116348349_015_00000816496580927726_0,
  016_00011974400026054626_016_00012768693372657955_016_00018308389863228256_116_00014131515753615709_016_00002050086787500355_116_00003338886116348349_015_00000816496580927726_0]

/-- lr/data.csv 5702-5801 -/
def dataCsv57 : List ℕ := [
  016_00012474360362331123_016_00012768693372657955_117_00023302785865539066_016_00001618197798310635_016_00002364300411149731_116_00003338886116348349_015_00000816496580927726_0,
  016_00012474360362331123_016_00012768693372657955_116_00010697306336465593_016_00014358411945410283_016_00002678514034799107_116_00003338886116348349_115_00001224744871391589_0,
  016_00011474439689778415_013_00000011420675660547_018_00029139010841842207_016_00003223264147551537_016_00003149834470273171_116_00003338886116348349_015_00000816496580927726_0,
  016_00011474439689778415_013_00000011420675660547_116_00004617266171529768_016_00005430230377757772_016_00003464048093922547_016_00029950108064592316_115_00001224744871391589_0,
  016_00012474360362331123_015_00001209468451660267_116_00011366668556458528_016_00012753345596169388_016_00004249582153045987_116_00003338886116348349_015_00000816496580927726_0,
  016_00011974400026054626_016_00012768693372657955_116_00004840386911527413_015_00000312294750072398_016_00004563795776695363_116_00003338886116348349_015_00000816496580927726_0,
  016_00011974400026054626_016_00012768693372657955_116_00013876776881432036_016_00030108125497336626_017_00048780094003447394_116_00003338886116348349_015_00000816496580927726_1,
  016_00011974400026054626_015_00001209468451660267_116_00005063507651525058_016_00003423897441206646_016_00005192223023994115_116_00003338886116348349_015_00000816496580927726_0,
  016_00011474439689778415_013_00000011420675660547_016_00004028662503378976_117_00013913016065160544_016_00005506436647643491_116_00003338886116348349_015_00000816496580927726_0,
  016_00010974479353501918_013_00000011420675660547_016_00000960752328411357_117_00013913016065160544_016_00005820650271292868_116_00003338886116348349_015_00000816496580927726_0,
  016_00010974479353501918_013_00000011420675660547_116_00007015814126504452_016_00006533713492860893_016_00006134863894942243_016_00029950108064592316_115_00001224744871391589_0,
  016_00010974479353501918_016_00010746666804491714_018_00034717029341783334_117_00040998510708600777_016_00006920397954065683_116_00003338886116348349_015_00000816496580927726_0,
  016_00010974479353501918_013_00000011420675660547_116_00011645569481455584_016_00014659361885892956_015_00000723461157771506_116_00003338886116348349_015_00000816496580927726_0,
  016_00010974479353501918_016_00012768693372657955_016_00003191959728387807_116_00001993201487481394_016_00007548825201364435_116_00003338886116348349_015_00000816496580927726_0,
  016_00010974479353501918_015_00001209468451660267_017_00044191237983748544_115_00000399953442403252_016_00007863038825013812_116_00003338886116348349_015_00000816496580927726_0,
  016_00010974479353501918_016_00012768693372657955_016_00003247739913387218_117_00042001677176876356_016_00008177252448663187_016_00029950108064592316_115_00001224744871391589_0,
  016_00011474439689778415_016_00013442702228713626_116_00010306845041469714_016_00012251762362031606_016_00008962786507786628_116_00003338886116348349_015_00000816496580927726_0,
  016_00011474439689778415_016_00013442702228713626_016_00011558987478299494_116_00011924549523409467_016_00009277000131436004_116_00003338886116348349_015_00000816496580927726_0,
  016_00011974400026054626_016_00013442702228713626_016_00004586464353373088_116_00007510617062996991_016_00009591213755085379_116_00003338886116348349_015_00000816496580927726_0,
  016_00011474439689778415_016_00013442702228713626_115_00000785251690149562_016_00003323580794379088_016_00009905427378734756_116_00003338886116348349_015_00000816496580927726_0,
  016_00011474439689778415_016_00012768693372657955_116_00005844430241516816_016_00011950812421548933_016_00010219641002384132_116_00003338886116348349_015_00000816496580927726_0,
  016_00011474439689778415_015_00001209468451660267_116_00005342408576522114_016_00003423897441206646_016_00010533854626033508_116_00003338886116348349_115_00001224744871391589_0,
  016_00010974479353501918_013_00000011420675660547_116_00002832300251548608_016_00004627697203137324_016_00011005175061507573_116_00003338886116348349_015_00000816496580927726_0,
  016_00011474439689778415_015_00001209468451660267_116_00003557442656540954_016_00008038463195274238_016_00011319388685156948_116_00003338886116348349_115_00001224744871391589_0,
  016_00011474439689778415_015_00001209468451660267_116_00005900210426516227_015_00001034574607230803_015_00001179070912063101_116_00003338886116348349_015_00000816496580927726_0,
  016_00011474439689778415_015_00001209468451660267_017_00010165325134107683_116_00005905550713756088_016_00012104922744280389_116_00003338886116348349_115_00001224744871391589_0,
  016_00011974400026054626_016_00012768693372657955_115_00000785251690149562_015_00001014511277865292_016_00012576243179754452_116_00003338886116348349_115_00001224744871391589_0,
  016_00011474439689778415_015_00001209468451660267_017_00011280928834095907_116_00005604600773273423_016_00013047563615228517_116_00003338886116348349_115_00001224744871391589_0,
  016_00011974400026054626_016_00012768693372657955_115_00000651379246150975_016_00006433396846033335_015_00001351888405070258_116_00003338886116348349_115_00001224744871391589_0,
  016_00011474439689778415_015_00001209468451660267_116_00004226804876533889_117_00043004843645151863_016_00013990204486176645_116_00003338886116348349_115_00001224744871391589_0,
  016_00011474439689778415_013_00000011420675660547_016_00014180656173271824_116_00014733415634581044_016_00014461524921650708_116_00003338886116348349_015_00000816496580927726_0,
  016_00010974479353501918_016_00010746666804491714_016_00018587290788225312_116_00019648931329131307_016_00014775738545300083_116_00003338886116348349_015_00000816496580927726_0,
  016_00010974479353501918_013_00000011420675660547_116_00007071594311503863_017_00045273805563097663_015_00001508995216894946_116_00003338886116348349_015_00000816496580927726_0,
  016_00011474439689778415_015_00001209468451660267_116_00002888080436548019_016_00003223264147551537_016_00015404165792598836_116_00003338886116348349_015_00000816496580927726_0,
  016_00011474439689778415_015_00001209468451660267_116_00009470142266478546_016_00016264428235133859_016_00015718379416248212_116_00003338886116348349_015_00000816496580927726_1,
  016_00011974400026054626_015_00001209468451660267_016_00007487033973342473_115_00000991821658685834_015_00001603259303989759_116_00003338886116348349_015_00000816496580927726_0,
  016_00011974400026054626_016_00012768693372657955_115_00000556552931651976_117_00033976345430671806_016_00016346806663546964_116_00003338886116348349_115_00001224744871391589_0,
  016_00011474439689778415_015_00001209468451660267_017_00019647956584007595_017_00028219975602413067_016_00016818127099021027_116_00003338886116348349_015_00000816496580927726_0,
  016_00011474439689778415_013_00000011420675660547_116_00014378798546426736_016_00008840996369894685_116_00016959837443286896_116_00003338886116348349_015_00000816496580927726_0,
  016_00010974479353501918_013_00000011420675660547_016_00006371430273354248_116_00008614100178100111_116_00016645623819637518_116_00003338886116348349_115_00001224744871391589_0,
  016_00011474439689778415_013_00000011420675660547_118_00021063155657627917_117_00016922515469987276_116_00016174303384163455_116_00003338886116348349_115_00001224744871391589_0,
  016_00011474439689778415_013_00000011420675660547_117_00031112011765456643_017_00005147146832075141_115_00001570298294868939_116_00003338886116348349_115_00001224744871391589_0,
  016_00011474439689778415_013_00000011420675660547_115_00000696003394150504_016_00007035296726998674_116_00015231662513215327_116_00003338886116348349_015_00000816496580927726_0,
  016_00010974479353501918_016_00010746666804491714_116_00008912340416484434_016_00002922314207068864_115_00001491744888956595_116_00003338886116348349_115_00001224744871391589_0,
  016_00010974479353501918_016_00010072657948436043_117_00031669813615450754_016_00002621364266586198_116_00014446128454091887_016_00029950108064592316_115_00001224744871391589_0,
  016_00010474519017225707_016_00010072657948436043_016_00025002012063157606_116_00019949881269613972_116_00013660594394968446_116_00003338886116348349_015_00000816496580927726_0,
  016_00010474519017225707_016_00010072657948436043_016_00005367386943364846_116_00008413466884444997_115_00001334638077131907_116_00003338886116348349_115_00001224744871391589_0,
  016_00010474519017225707_016_00010072657948436043_118_00032219192657510165_117_00005887684318956068_116_00012875060335845006_116_00003338886116348349_015_00000816496580927726_0,
  016_00010974479353501918_013_00000011420675660547_017_00020763560283995822_116_00006005867360583647_115_00001256084671219563_116_00003338886116348349_115_00001224744871391589_0,
  016_00010974479353501918_015_00001209468451660267_116_00011645569481455584_016_00022484060338442347_116_00012089526276721567_016_00029950108064592316_115_00001224744871391589_0,
  016_00010974479353501918_015_00001209468451660267_016_00024667330953161137_116_00018244498273545515_116_00011303992217598127_116_00003338886116348349_015_00000816496580927726_0,
  016_00011474439689778415_015_00001209468451660267_116_00003557442656540954_017_00028219975602413067_116_00010989778593948751_016_00029950108064592316_115_00001224744871391589_0,
  016_00011474439689778415_015_00001209468451660267_016_00014794238208265347_116_00015034365575063715_115_00001020424453482531_016_00029950108064592316_115_00001224744871391589_0,
  016_00010974479353501918_016_00010746666804491714_116_00006848473571506217_016_00014157778651755175_115_00000941871047570187_116_00003338886116348349_015_00000816496580927726_0,
  016_00010474519017225707_016_00010072657948436043_015_00001049916396331068_116_00012325816110719694_116_00009104496852052494_116_00003338886116348349_015_00000816496580927726_0,
  016_00010474519017225707_016_00009398649092380373_116_00008242978196491499_016_00009242262957204916_116_00008790283228403118_116_00003338886116348349_015_00000816496580927726_0,
  015_00000997455868094921_016_00010072657948436043_115_00000963748282147678_016_00012352079008859156_116_00008476069604753742_116_00003338886116348349_115_00001224744871391589_0,
  016_00009474598344672714_016_00008724640236325086_115_00000963748282147678_015_00001566252835416852_116_00008004749169279678_116_00003338886116348349_015_00000816496580927726_0,
  016_00009474598344672714_016_00008724640236325086_117_00021071578465562615_017_00008156646236901802_116_00007690535545630302_116_00003338886116348349_015_00000816496580927726_0,
  016_00008974638008396503_016_00008724640236325086_017_00006818514034143008_117_00042001677176876356_116_00007376321921980926_116_00003338886116348349_015_00000816496580927726_0,
  016_00009474598344672714_016_00008724640236325086_117_00009357739615686254_117_00044008010113427437_115_00000706210829833155_116_00003338886116348349_115_00001224744871391589_0,
  016_00009474598344672714_016_00008050631380269416_116_00009470142266478546_016_00009844162838170248_116_00006590787862857486_116_00003338886116348349_015_00000816496580927726_0,
  016_00008974638008396503_016_00008050631380269416_115_00001142244874145794_016_00012352079008859156_115_00000627657423920811_116_00003338886116348349_015_00000816496580927726_0,
  016_00008974638008396503_016_00008050631380269416_116_00004896167096526824_117_00005887684318956068_116_00005962360615558734_016_00029950108064592316_115_00001224744871391589_0,
  016_00008474677672120007_016_00008050631380269416_017_00028014984333919285_117_00020935181343089515_116_00005176826556435293_116_00003338886116348349_015_00000816496580927726_0,
  016_00008474677672120007_016_00008724640236325086_016_00009439340448321867_116_00009516949999548118_117_00048626129327859174_116_00003338886116348349_015_00000816496580927726_0,
  016_00008474677672120007_016_00008050631380269416_116_00007015814126504452_016_00002621364266586198_117_00045483993091365416_116_00003338886116348349_115_00001224744871391589_0,
  016_00007974717335843795_016_00008050631380269416_115_00000690425375650563_016_00006533713492860893_117_00040770788736624775_116_00003338886116348349_115_00001224744871391589_0,
  016_00008474677672120007_016_00008724640236325086_116_00006569572646509162_016_00005931813611895553_117_00036057584381884134_116_00003338886116348349_015_00000816496580927726_0,
  016_00008474677672120007_016_00008724640236325086_116_00010641526151466183_016_00011047962600100927_117_00032915448145390375_116_00003338886116348349_015_00000816496580927726_0,
  016_00007974717335843795_016_00008050631380269416_116_00007294715051501508_016_00002922314207068864_117_00029773311908896616_116_00003338886116348349_015_00000816496580927726_0,
  016_00007974717335843795_016_00008050631380269416_117_00007684334065703917_016_00003724847381689319_117_00026631175672402857_116_00003338886116348349_015_00000816496580927726_0,
  016_00007974717335843795_016_00008724640236325086_016_00009327780078323045_116_00010118849880513456_117_00023489039435909095_116_00003338886116348349_015_00000816496580927726_0,
  016_00007974717335843795_016_00008050631380269416_116_00008019857456493854_016_00006834663433343559_117_00020346903199415334_016_00029950108064592316_115_00001224744871391589_0,
  016_00007474756999567299_015_00000737662252421413_017_00035266408383842746_115_00000570491742010098_117_00012491562608180934_116_00003338886116348349_015_00000816496580927726_0,
  016_00007974717335843795_015_00000737662252421413_016_00020539597263204707_116_00018545448214028186_117_00009349426371687174_116_00003338886116348349_015_00000816496580927726_0,
  016_00007974717335843795_015_00000737662252421413_115_00001192447040645264_016_00009242262957204916_118_00062072901351934134_116_00003338886116348349_015_00000816496580927726_0,
  016_00007974717335843795_015_00000737662252421413_116_00007294715051501508_016_00004427063909482209_117_00003065153898699653_116_00003338886116348349_015_00000816496580927726_0,
  016_00008474677672120007_015_00000737662252421413_116_00002776520066549197_017_00014175645046555194_019_00007698233779410749_116_00003338886116348349_115_00001224744871391589_0,
  016_00007974717335843795_015_00000737662252421413_016_00007877495268338351_115_00001082106640830635_017_00004790186692534748_116_00003338886116348349_015_00000816496580927726_0,
  016_00008474677672120007_016_00008050631380269416_117_00012146748865656816_017_00024207309729310825_017_00007932322929028508_116_00003338886116348349_015_00000816496580927726_0,
  016_00008474677672120007_015_00000737662252421413_017_00044191237983748544_117_00032973178962396227_017_00011074459165522269_116_00003338886116348349_115_00001224744871391589_0,
  016_00008474677672120007_015_00000737662252421413_116_00004673046356529179_118_00018750184458538297_016_00001578766352026291_116_00003338886116348349_015_00000816496580927726_0,
  016_00008974638008396503_015_00000737662252421413_018_00023560992341901083_117_00035982678367222964_017_00018929799756756668_016_00029950108064592316_115_00001224744871391589_0,
  016_00008974638008396503_015_00000737662252421413_116_00007796736716496209_017_00018188310919657433_016_00002678514034799107_116_00003338886116348349_115_00001224744871391589_0,
  016_00008474677672120007_015_00000737662252421413_117_00038921237665374214_117_00027957346621018414_016_00003149834470273171_116_00003338886116348349_015_00000816496580927726_0,
  016_00008474677672120007_016_00008050631380269416_117_00009915541465680366_117_00032973178962396227_016_00003464048093922547_116_00003338886116348349_015_00000816496580927726_0,
  016_00008474677672120007_016_00008724640236325086_016_00002522597508394872_116_00001190668312860946_016_00003778261717571923_116_00003338886116348349_015_00000816496580927726_0,
  016_00008974638008396503_016_00010072657948436043_116_00005342408576522114_016_00003323580794379088_016_00004092475341221299_116_00003338886116348349_015_00000816496580927726_0,
  016_00008974638008396503_016_00010072657948436043_116_00006848473571506217_016_00009041629663549801_017_00044066889648706753_116_00003338886116348349_115_00001224744871391589_0,
  016_00008474677672120007_016_00008050631380269416_017_00013512136234072358_116_00005504284126445864_017_00048780094003447394_116_00003338886116348349_115_00001224744871391589_0,
  016_00008974638008396503_016_00008724640236325086_018_00017982973841959956_018_00011344809589729025_016_00005349329835818804_116_00003338886116348349_115_00001224744871391589_0,
  016_00008974638008396503_016_00008724640236325086_016_00004753804908371322_116_00008413466884444997_016_00005820650271292868_116_00003338886116348349_115_00001224744871391589_0,
  016_00008974638008396503_016_00008724640236325086_117_00037805633965385993_017_00042264306158271003_016_00006291970706766932_116_00003338886116348349_015_00000816496580927726_0,
  016_00009474598344672714_016_00010072657948436043_116_00002609179511550963_017_00008156646236901802_016_00006606184330416307_116_00003338886116348349_115_00001224744871391589_0,
  016_00009474598344672714_016_00009398649092380373_116_00004115244506535067_118_00008718519775782523_016_00007077504765890371_116_00003338886116348349_115_00001224744871391589_0,
  016_00008474677672120007_015_00000737662252421413_116_00007796736716496209_016_00015160945120030738_016_00007548825201364435_116_00003338886116348349_015_00000816496580927726_0,
  016_00007974717335843795_015_00000670261366815846_116_00006011770796515049_016_00002621364266586198_016_00007863038825013812_116_00003338886116348349_015_00000816496580927726_0,
  016_00007474756999567299_015_00000602860481210279_016_00003415080468385452_117_00009900350192058306_016_00008177252448663187_116_00003338886116348349_015_00000816496580927726_0,
  016_00007474756999567299_016_00005354595956047504_017_00030246191733895733_116_00005504284126445864_016_00008491466072312563_116_00003338886116348349_015_00000816496580927726_0]

/-- lr/data.csv 5802-5901 -/
def dataCsv58 : List ℕ := [
  016_00007474756999567299_015_00000602860481210279_117_00038921237665374214_016_00004728013849964882_015_00000880567969596194_116_00003338886116348349_015_00000816496580927726_0,
  016_00007474756999567299_016_00005354595956047504_116_00007015814126504452_016_00004627697203137324_016_00009119893319611315_116_00003338886116348349_015_00000816496580927726_0,
  016_00006974796663290803_016_00005354595956047504_116_00002720739881549785_116_00001993201487481394_016_00009434106943260692_116_00003338886116348349_015_00000816496580927726_0,
  016_00007474756999567299_015_00000602860481210279_016_00007375473603343651_116_00008915050118582778_016_00009748320566910068_116_00003338886116348349_015_00000816496580927726_0,
  016_00007474756999567299_015_00000602860481210279_116_00009693263006476192_016_00006533713492860893_016_00010062534190559445_116_00003338886116348349_015_00000816496580927726_0,
  016_00006974796663290803_015_00000602860481210279_017_00010165325134107683_117_00006890850787231645_015_00001037674781420882_116_00003338886116348349_115_00001224744871391589_0,
  016_00006974796663290803_015_00000602860481210279_116_00005509749131520348_016_00005430230377757772_016_00010848068249682883_116_00003338886116348349_015_00000816496580927726_0,
  016_00006974796663290803_015_00000602860481210279_116_00002776520066549197_117_00010903516660333884_015_00001116228187333226_116_00003338886116348349_115_00001224744871391589_0,
  016_00006974796663290803_015_00000670261366815846_015_00001083384507330715_116_00014332149047270821_016_00011633602308806323_116_00003338886116348349_015_00000816496580927726_0,
  016_00006474836327014591_015_00000670261366815846_016_00002299476768397227_117_00033976345430671806_014_00000119478159324557_016_00029950108064592316_115_00001224744871391589_0,
  016_00006474836327014591_015_00000670261366815846_015_00001769480782823473_116_00018144181626717961_015_00001273334999157914_116_00003338886116348349_015_00000816496580927726_0,
  016_00006474836327014591_015_00000737662252421413_115_00000472882654152859_017_00003140813895523986_016_00013047563615228517_116_00003338886116348349_015_00000816496580927726_0,
  016_00006974796663290803_015_00000737662252421413_116_00002441838956552729_116_00003698584483549854_016_00013361777238877892_116_00003338886116348349_015_00000816496580927726_0,
  016_00005974875990738095_015_00000670261366815846_016_00012395690253290663_116_00010921383055133904_016_00013675990862527267_116_00003338886116348349_015_00000816496580927726_0,
  016_00006474836327014591_015_00000670261366815846_116_00007629396161497976_016_00007536879961136456_016_00013990204486176645_116_00003338886116348349_115_00001224744871391589_0,
  016_00005974875990738095_015_00000670261366815846_015_00000731969341834424_116_00007009033828859209_016_00014461524921650708_116_00003338886116348349_015_00000816496580927726_0,
  016_00006474836327014591_015_00000670261366815846_017_00024110371383960497_117_00044008010113427437_016_00014775738545300083_116_00003338886116348349_015_00000816496580927726_0,
  016_00006474836327014591_015_00000670261366815846_018_00017982973841959956_117_00049023842454805255_015_00001508995216894946_116_00003338886116348349_015_00000816496580927726_0,
  016_00006474836327014591_015_00000670261366815846_019_00012489183421365824_117_00030966846025845146_016_00015404165792598836_116_00003338886116348349_015_00000816496580927726_0,
  016_00006474836327014591_015_00000670261366815846_116_00006736913201507395_016_00001919147738793301_016_00015718379416248212_116_00003338886116348349_015_00000816496580927726_0,
  016_00006474836327014591_015_00000737662252421413_016_00010276043223313036_116_00012426132757547248_015_00001603259303989759_116_00003338886116348349_015_00000816496580927726_0,
  016_00006474836327014591_015_00000737662252421413_116_00013151634476439689_016_00009242262957204916_016_00016346806663546964_116_00003338886116348349_015_00000816496580927726_0,
  016_00006474836327014591_015_00000670261366815846_116_00004226804876533889_015_00001024542942548048_015_00001666102028719634_116_00003338886116348349_115_00001224744871391589_0,
  016_00005974875990738095_015_00000670261366815846_018_00029139010841842207_117_00006890850787231645_016_00017132340722670405_116_00003338886116348349_015_00000816496580927726_0,
  016_00005974875990738095_015_00000670261366815846_016_00003191959728387807_117_00027957346621018414_015_00001744655434631978_116_00003338886116348349_015_00000816496580927726_0,
  016_00006474836327014591_015_00000737662252421413_116_00007015814126504452_017_00020194643856208588_016_00017760767969969156_116_00003338886116348349_015_00000816496580927726_0,
  016_00006474836327014591_015_00000737662252421413_116_00002609179511550963_017_00012169312110004112_016_00018074981593618533_116_00003338886116348349_115_00001224744871391589_0,
  016_00006474836327014591_015_00000737662252421413_016_00004753804908371322_016_00000915981270517738_116_00016959837443286896_116_00003338886116348349_015_00000816496580927726_0,
  016_00006474836327014591_015_00000737662252421413_117_00019398172915580278_117_00008897183723782728_116_00016645623819637518_116_00003338886116348349_015_00000816496580927726_0,
  016_00005974875990738095_015_00000737662252421413_017_00019647956584007595_115_00000570491742010098_116_00016331410195988143_116_00003338886116348349_115_00001224744871391589_0,
  016_00006474836327014591_016_00008050631380269416_115_00000562130950151917_017_00024207309729310825_116_00015860089760514078_116_00003338886116348349_115_00001224744871391589_0,
  016_00006474836327014591_016_00008724640236325086_117_00036132228415403655_015_00001074701265961826_116_00015388769325040015_116_00003338886116348349_015_00000816496580927726_0,
  016_00006474836327014591_016_00008050631380269416_016_00007598594343341296_116_00007911883650307214_115_00001507455570139064_116_00003338886116348349_015_00000816496580927726_0,
  016_00006474836327014591_016_00008050631380269416_117_00045614859865303564_017_00045273805563097663_116_00014760342077741262_116_00003338886116348349_015_00000816496580927726_0,
  016_00006474836327014591_016_00008724640236325086_116_00005844430241516816_016_00009844162838170248_116_00014446128454091887_116_00003338886116348349_015_00000816496580927726_0,
  016_00006474836327014591_016_00008050631380269416_016_00007208133048345416_115_00000991821658685834_116_00014131914830442511_116_00003338886116348349_015_00000816496580927726_0,
  016_00005974875990738095_015_00000737662252421413_017_00006260712184148895_118_00028781849141293357_116_00013817701206793134_116_00003338886116348349_015_00000816496580927726_0,
  016_00006474836327014591_015_00000737662252421413_016_00016467643758247685_115_00001463309898775349_116_00013503487583143758_116_00003338886116348349_115_00001224744871391589_0,
  016_00006974796663290803_016_00008050631380269416_116_00003501662471541543_117_00034979511898947385_116_00013032167147669695_116_00003338886116348349_115_00001224744871391589_0,
  016_00006974796663290803_016_00008050631380269416_018_00012404955342018832_116_00003698584483549854_115_00001256084671219563_116_00003338886116348349_115_00001224744871391589_0,
  016_00006474836327014591_015_00000737662252421413_017_00023552569533966383_116_00009115683412237894_116_00012089526276721567_116_00003338886116348349_115_00001224744871391589_0,
  016_00006474836327014591_015_00000737662252421413_016_00007765934898339529_116_00009316316705893005_116_00011618205841247502_116_00003338886116348349_115_00001224744871391589_0,
  016_00006974796663290803_016_00008050631380269416_116_00010251064856470304_016_00010646696012790704_115_00001114688540577344_116_00003338886116348349_015_00000816496580927726_0,
  016_00007474756999567299_016_00008050631380269416_016_00008993098968326577_116_00011222332995616573_116_00010832671782124061_116_00003338886116348349_015_00000816496580927726_0,
  016_00006974796663290803_015_00000737662252421413_117_00042825850615333005_117_00028960513089293993_116_00010518458158474686_116_00003338886116348349_015_00000816496580927726_0,
  016_00006974796663290803_016_00008050631380269416_015_00001049916396331068_115_00001352961587265037_115_00001020424453482531_116_00003338886116348349_115_00001224744871391589_0,
  016_00006974796663290803_016_00008724640236325086_016_00007542814158341884_116_00006708083888376544_116_00009732924099351247_116_00003338886116348349_015_00000816496580927726_0,
  016_00006974796663290803_016_00008724640236325086_116_00007908297086495032_017_00023204143261035248_115_00000941871047570187_116_00003338886116348349_015_00000816496580927726_0,
  016_00006974796663290803_016_00008724640236325086_015_00004374415422295979_115_00002416318043637134_116_00009104496852052494_116_00003338886116348349_015_00000816496580927726_0,
  016_00006974796663290803_016_00008050631380269416_116_00005844430241516816_016_00007637196607964014_116_00008790283228403118_116_00003338886116348349_115_00001224744871391589_0,
  016_00006474836327014591_015_00000737662252421413_017_00011838730684090021_116_00004701750951825417_116_00008318962792929054_116_00003338886116348349_015_00000816496580927726_0,
  016_00005974875990738095_015_00000670261366815846_017_00019090154734013484_116_00007209667122514325_116_00008004749169279678_116_00003338886116348349_015_00000816496580927726_0,
  016_00005974875990738095_015_00000602860481210279_015_00001445955709826888_116_00017742915039407734_116_00007690535545630302_016_00029950108064592316_115_00001224744871391589_0,
  016_00005974875990738095_015_00000670261366815846_016_00001574334363404881_117_00049023842454805255_116_00006905001486506862_116_00003338886116348349_015_00000816496580927726_0,
  016_00005974875990738095_015_00000602860481210279_116_00006848473571506217_016_00013355245477134718_116_00006590787862857486_116_00003338886116348349_015_00000816496580927726_0,
  016_00005974875990738095_015_00000602860481210279_116_00006402232091510928_016_00005229597084102664_115_00000627657423920811_116_00003338886116348349_115_00001224744871391589_0,
  016_00005974875990738095_015_00000602860481210279_015_00000330352009838663_117_00040998510708600777_116_00005805253803734046_016_00029950108064592316_115_00001224744871391589_0,
  016_00006474836327014591_015_00000602860481210279_015_00001233991006829125_116_00016137848690166836_116_00005019719744610606_116_00003338886116348349_015_00000816496580927726_0,
  016_00006474836327014591_015_00000670261366815846_116_00010641526151466183_017_00045273805563097663_115_00000470550612096123_116_00003338886116348349_015_00000816496580927726_0,
  016_00006474836327014591_015_00000670261366815846_018_00017982973841959956_115_00000640713394789387_116_00004391292497311854_116_00003338886116348349_015_00000816496580927726_0,
  016_00006474836327014591_015_00000602860481210279_017_00015185541784054696_116_00006908717182031652_117_00040770788736624775_116_00003338886116348349_015_00000816496580927726_0,
  016_00006474836327014591_015_00000670261366815846_017_00008491919584125346_016_00007737513254791571_117_00037628652500131016_116_00003338886116348349_015_00000816496580927726_0,
  016_00006974796663290803_015_00000670261366815846_117_00038363435815380104_017_00006150313300350718_117_00034486516263637257_116_00003338886116348349_015_00000816496580927726_0,
  016_00006974796663290803_015_00000737662252421413_015_00001222834969829243_115_00001463309898775349_115_00000313443800271435_116_00003338886116348349_115_00001224744871391589_0,
  016_00006974796663290803_015_00000670261366815846_117_00029438606215474306_117_00034979511898947385_117_00026631175672402857_116_00003338886116348349_115_00001224744871391589_0,
  016_00007474756999567299_015_00000737662252421413_116_00007629396161497976_019_00013131449069732513_117_00021917971317662216_116_00003338886116348349_115_00001224744871391589_0,
  016_00007474756999567299_015_00000737662252421413_117_00044499256165315343_016_00005129280437275106_117_00017204766962921575_116_00003338886116348349_015_00000816496580927726_0,
  016_00007474756999567299_015_00000670261366815846_117_00024976191415521404_016_00005329913730930215_117_00014062630726427813_116_00003338886116348349_015_00000816496580927726_0,
  016_00007474756999567299_015_00000737662252421413_016_00010722284703308325_116_00012125182817064584_117_00010920494489934053_116_00003338886116348349_015_00000816496580927726_0,
  016_00007474756999567299_015_00000737662252421413_016_00029966448528105207_116_00021354314325199764_117_00007778358253440293_116_00003338886116348349_015_00000816496580927726_0,
  016_00007474756999567299_015_00000737662252421413_015_00002879506464311757_116_00023260330614923332_118_00046362220169465326_116_00003338886116348349_015_00000816496580927726_0,
  016_00007474756999567299_015_00000737662252421413_117_00038921237665374214_016_00009543212897687582_118_00014940857804527726_116_00003338886116348349_015_00000816496580927726_0,
  016_00007474756999567299_015_00000670261366815846_117_00019398172915580278_016_00002621364266586198_018_00016480504560409875_116_00003338886116348349_115_00001224744871391589_0,
  016_00007474756999567299_015_00000737662252421413_116_00007964077271494443_016_00003524214088034203_017_00006361254810781627_116_00003338886116348349_115_00001224744871391589_0,
  016_00007474756999567299_015_00000737662252421413_016_00006761891568350127_116_00006206500654238761_017_00011074459165522269_116_00003338886116348349_115_00001224744871391589_0,
  016_00007474756999567299_015_00000670261366815846_017_00021321362133989932_118_00028781849141293357_016_00001578766352026291_116_00003338886116348349_115_00001224744871391589_0,
  016_00007474756999567299_015_00000737662252421413_116_00006290671721512106_016_00012151445715204048_016_00002050086787500355_116_00003338886116348349_015_00000816496580927726_0,
  016_00007474756999567299_015_00000737662252421413_117_00045057058015309454_017_00014175645046555194_016_00002364300411149731_116_00003338886116348349_015_00000816496580927726_0,
  016_00006974796663290803_015_00000670261366815846_118_00032219192657510165_016_00005831496965067996_016_00002678514034799107_116_00003338886116348349_015_00000816496580927726_0,
  016_00006974796663290803_015_00000670261366815846_016_00009048879153325988_114_00000116235995829268_016_00002992727658448483_116_00003338886116348349_015_00000816496580927726_0,
  016_00007474756999567299_015_00000737662252421413_116_00005844430241516816_015_00000964352954451514_016_00003306941282097859_116_00003338886116348349_015_00000816496580927726_0,
  016_00006974796663290803_015_00000737662252421413_016_00023049705588178213_116_00017341648452097511_017_00036211549057472353_116_00003338886116348349_015_00000816496580927726_0,
  016_00006974796663290803_015_00000737662252421413_117_00038921237665374214_117_00030966846025845146_016_00003935368529396611_116_00003338886116348349_015_00000816496580927726_0,
  016_00006974796663290803_015_00000737662252421413_016_00014571117468267702_115_00001403119910678815_016_00004249582153045987_116_00003338886116348349_015_00000816496580927726_0,
  016_00006474836327014591_015_00000737662252421413_115_00000562130950151917_016_00003022630853896422_016_00004563795776695363_116_00003338886116348349_115_00001224744871391589_0,
  016_00006474836327014591_015_00000737662252421413_016_00006036749163357781_116_00011824232876581913_016_00005035116212169427_116_00003338886116348349_015_00000816496580927726_0,
  016_00006974796663290803_015_00000737662252421413_117_00024976191415521404_016_00001919147738793301_016_00005349329835818804_116_00003338886116348349_015_00000816496580927726_0,
  016_00006974796663290803_015_00000737662252421413_116_00005230848206523292_017_00014175645046555194_016_00005663543459468179_016_00029950108064592316_115_00001224744871391589_0,
  016_00007474756999567299_015_00000737662252421413_116_00001772476736559794_117_00013913016065160544_016_00006449077518591619_116_00003338886116348349_115_00001224744871391589_0,
  016_00006974796663290803_015_00000670261366815846_116_00017000467241399064_016_00015863161647823627_016_00006920397954065683_116_00003338886116348349_115_00001224744871391589_0,
  016_00006974796663290803_015_00000670261366815846_016_00005311606758365435_116_00007410300416169433_016_00007391718389539748_116_00003338886116348349_015_00000816496580927726_0,
  016_00006974796663290803_015_00000670261366815846_115_00001142244874145794_016_00013355245477134718_016_00007705932013189124_116_00003338886116348349_015_00000816496580927726_0,
  016_00006974796663290803_015_00000737662252421413_117_00037247832115391877_017_00045273805563097663_016_00008020145636838499_116_00003338886116348349_015_00000816496580927726_0,
  016_00006474836327014591_015_00000670261366815846_116_00007183154681502685_016_00012753345596169388_016_00008334359260487876_116_00003338886116348349_115_00001224744871391589_0,
  016_00005974875990738095_015_00000602860481210279_016_00003247739913387218_117_00020935181343089515_015_00000880567969596194_116_00003338886116348349_015_00000816496580927726_0,
  016_00005974875990738095_015_00000602860481210279_117_00043941454315321227_016_00006734346786516008_016_00009119893319611315_116_00003338886116348349_115_00001224744871391589_0,
  016_00005474915654461884_016_00005354595956047504_116_00014769259841422615_016_00015762845000996077_016_00009591213755085379_116_00003338886116348349_015_00000816496580927726_0,
  017_00049749553181853884_016_00004680587099991834_117_00012146748865656816_018_00021376474272484798_016_00009905427378734756_116_00003338886116348349_115_00001224744871391589_0,
  017_00049749553181853884_016_00004680587099991834_116_00013318975031437923_016_00017267594703409421_015_00001037674781420882_116_00003338886116348349_015_00000816496580927726_0,
  017_00044749949819088924_017_00040065782439365477_016_00008212176378334819_116_00012325816110719694_016_00010690961437858195_016_00029950108064592316_115_00001224744871391589_0]

/-- lr/data.csv 5902-6001 -/
def dataCsv59 : List ℕ := [
  017_00044749949819088924_016_00004680587099991834_117_00029996408065468416_017_00010162979173452956_016_00011476495496981636_116_00003338886116348349_115_00001224744871391589_0,
  017_00049749553181853884_016_00004680587099991834_116_00004171024691534478_016_00005831496965067996_014_00000119478159324557_116_00003338886116348349_015_00000816496580927726_0,
  017_00044749949819088924_017_00040065782439365477_015_00000330352009838663_117_00046014343049978595_016_00012262029556105076_116_00003338886116348349_015_00000816496580927726_0,
  017_00044749949819088924_017_00033325693878808776_015_00001981445485821236_116_00018144181626717961_016_00012576243179754452_116_00003338886116348349_015_00000816496580927726_0,
  017_00039750346456326807_017_00033325693878808776_116_00011645569481455584_016_00019073294346305432_016_00012890456803403827_116_00003338886116348349_115_00001224744871391589_0,
  017_00039750346456326807_017_00033325693878808776_017_00024110371383960497_116_00008915050118582778_016_00013361777238877892_016_00029950108064592316_115_00001224744871391589_0,
  016_00003475074309356185_017_00019845516757699214_118_00032219192657510165_117_00044008010113427437_016_00014147311298001333_116_00003338886116348349_015_00000816496580927726_0,
  017_00039750346456326807_016_00002658560531825208_116_00006681133016507984_016_00006433396846033335_016_00014461524921650708_016_00029950108064592316_115_00001224744871391589_0,
  017_00039750346456326807_017_00019845516757699214_117_00007126532215709803_116_00003698584483549854_016_00015247058980774149_116_00003338886116348349_115_00001224744871391589_0,
  016_00003475074309356185_017_00013105428197142516_116_00009749043191475603_015_00002539324309644148_016_00015718379416248212_016_00029950108064592316_115_00001224744871391589_1,
  017_00039750346456326807_017_00019845516757699214_117_00045057058015309454_016_00003423897441206646_116_00016959837443286896_116_00003338886116348349_115_00001224744871391589_0,
  017_00039750346456326807_016_00002658560531825208_116_00013988337251430858_016_00024089126687683247_115_00001648851700781283_116_00003338886116348349_115_00001224744871391589_0,
  016_00003475074309356185_017_00019845516757699214_016_00006706111383350716_115_00001021916652734101_116_00016017196572338768_116_00003338886116348349_115_00001224744871391589_0,
  016_00003475074309356185_017_00013105428197142516_116_00003334321916543309_016_00012352079008859156_116_00015545876136864702_016_00029950108064592316_115_00001224744871391589_0,
  016_00003475074309356185_017_00019845516757699214_016_00002968838988390162_115_00000399953442403252_116_00014760342077741262_116_00003338886116348349_015_00000816496580927726_0,
  016_00002975113973079973_017_00013105428197142516_117_00003779721115745129_117_00012909849596884967_116_00014446128454091887_116_00003338886116348349_115_00001224744871391589_0,
  016_00002975113973079973_017_00013105428197142516_017_00009049721434119458_016_00001919147738793301_116_00013974808018617824_116_00003338886116348349_015_00000816496580927726_0,
  016_00002975113973079973_017_00013105428197142516_116_00011031987446462062_015_00001265302894934183_116_00013660594394968446_116_00003338886116348349_015_00000816496580927726_0,
  016_00002975113973079973_016_00000636533963658965_018_00012404955342018832_017_00020194643856208588_115_00001334638077131907_116_00003338886116348349_015_00000816496580927726_0,
  016_00002975113973079973_017_00019845516757699214_115_00000696003394150504_016_00010646696012790704_116_00013032167147669695_116_00003338886116348349_015_00000816496580927726_0,
  016_00002475153636803477_017_00013105428197142516_016_00012563030808288898_116_00014131515753615709_116_00012717953524020318_116_00003338886116348349_015_00000816496580927726_0,
  016_00002475153636803477_017_00019845516757699214_116_00011310888371459118_016_00017167278056581863_116_00012403739900370943_116_00003338886116348349_015_00000816496580927726_0,
  016_00002475153636803477_017_00019845516757699214_116_00005788650056517404_016_00003323580794379088_116_00012089526276721567_116_00003338886116348349_015_00000816496580927726_0,
  017_00019751933005269812_017_00019845516757699214_118_00009907118657745668_116_00005002700892308083_115_00001177531265307219_116_00003338886116348349_115_00001224744871391589_0,
  017_00014752329642507697_017_00013105428197142516_116_00009470142266478546_016_00008840996369894685_116_00011303992217598127_116_00003338886116348349_015_00000816496580927726_0,
  017_00009752726279742736_016_00000636533963658965_016_00004474903983374266_116_00008714416824927665_116_00010989778593948751_116_00003338886116348349_115_00001224744871391589_0,
  017_00009752726279742736_016_00000636533963658965_116_00005509749131520348_016_00011148279246928485_116_00010518458158474686_116_00003338886116348349_015_00000816496580927726_0,
  017_00009752726279742736_016_00000636533963658965_016_00006148309533356603_116_00009516949999548118_115_00001020424453482531_116_00003338886116348349_015_00000816496580927726_0,
  017_00009752726279742736_016_00000636533963658965_017_00006260712184148895_117_00012909849596884967_116_00009890030911175934_116_00003338886116348349_115_00001224744871391589_0,
  017_00014752329642507697_017_00013105428197142516_117_00037805633965385993_016_00005229597084102664_115_00000941871047570187_116_00003338886116348349_015_00000816496580927726_0,
  017_00014752329642507697_017_00019845516757699214_117_00031112011765456643_016_00011649862481066267_116_00009104496852052494_116_00003338886116348349_015_00000816496580927726_0,
  017_00014752329642507697_016_00002658560531825208_116_00011310888371459118_015_00001445872859223784_116_00008790283228403118_116_00003338886116348349_015_00000816496580927726_0,
  016_00002475153636803477_017_00033325693878808776_117_00013262352565645041_117_00033976345430671806_116_00008476069604753742_116_00003338886116348349_015_00000816496580927726_0,
  016_00002475153636803477_017_00033325693878808776_116_00009247021526480902_016_00007436563314308898_116_00008161855981104366_116_00003338886116348349_015_00000816496580927726_0,
  016_00002975113973079973_017_00033325693878808776_115_00000472882654152859_016_00011248595893756042_115_00000784764235745499_016_00029950108064592316_115_00001224744871391589_0,
  016_00002475153636803477_017_00033325693878808776_015_00000598096897835837_116_00005504284126445864_115_00000706210829833155_116_00003338886116348349_015_00000816496580927726_0,
  016_00002475153636803477_016_00002658560531825208_017_00005145108484160671_117_00026954180152742907_116_00006747894674682174_116_00003338886116348349_115_00001224744871391589_0,
  016_00002975113973079973_017_00033325693878808776_117_00042825850615333005_017_00013172478578279617_115_00000627657423920811_116_00003338886116348349_115_00001224744871391589_0,
  016_00002475153636803477_016_00002658560531825208_016_00009104659338325399_116_00006908717182031652_116_00005805253803734046_116_00003338886116348349_015_00000816496580927726_0,
  016_00002475153636803477_017_00033325693878808776_116_00007238934866502097_013_00000020979310636029_115_00000549104018008467_116_00003338886116348349_015_00000816496580927726_0,
  016_00002975113973079973_017_00040065782439365477_116_00006234891536512694_016_00012853662242996937_116_00005176826556435293_116_00003338886116348349_115_00001224744871391589_0,
  016_00002975113973079973_016_00004680587099991834_115_00000562130950151917_016_00008540046429412019_115_00000470550612096123_116_00003338886116348349_015_00000816496580927726_1,
  016_00003475074309356185_016_00004680587099991834_117_00049519472815262355_016_00003423897441206646_116_00004391292497311854_116_00003338886116348349_015_00000816496580927726_0,
  016_00003475074309356185_016_00004680587099991834_018_00012404955342018832_017_00013172478578279617_117_00040770788736624775_116_00003338886116348349_015_00000816496580927726_0,
  016_00003475074309356185_017_00040065782439365477_117_00030554209915462527_116_00001993201487481394_117_00037628652500131016_116_00003338886116348349_115_00001224744871391589_0,
  017_00039750346456326807_016_00005354595956047504_115_00000690425375650563_017_00045273805563097663_117_00032915448145390375_116_00003338886116348349_115_00001224744871391589_0,
  016_00003475074309356185_016_00005354595956047504_116_00002386058771553318_016_00006433396846033335_117_00028202243790649734_116_00003338886116348349_015_00000816496580927726_0,
  016_00003475074309356185_016_00005354595956047504_116_00004115244506535067_016_00005229597084102664_117_00025060107554155975_116_00003338886116348349_115_00001224744871391589_0,
  016_00003475074309356185_016_00005354595956047504_016_00032030315373083424_116_00021554947618854876_117_00020346903199415334_116_00003338886116348349_015_00000816496580927726_0,
  016_00003475074309356185_016_00005354595956047504_117_00018282569215592054_016_00004025797322171985_117_00017204766962921575_116_00003338886116348349_115_00001224744871391589_0,
  016_00003475074309356185_016_00005354595956047504_016_00008379516933333053_115_00001112201634878902_117_00012491562608180934_116_00003338886116348349_015_00000816496580927726_0,
  016_00003475074309356185_015_00000602860481210279_016_00006204089718356014_116_00010620433114651238_117_00009349426371687174_116_00003338886116348349_015_00000816496580927726_0,
  016_00003475074309356185_016_00005354595956047504_017_00013512136234072358_116_00006206500654238761_118_00062072901351934134_116_00003338886116348349_015_00000816496580927726_0,
  016_00003475074309356185_015_00000602860481210279_117_00029438606215474306_117_00010903516660333884_117_00003065153898699653_116_00003338886116348349_115_00001224744871391589_0,
  017_00039750346456326807_015_00000602860481210279_016_00010778064888307737_116_00014332149047270821_018_00016480504560409875_116_00003338886116348349_015_00000816496580927726_0,
  016_00003475074309356185_016_00005354595956047504_016_00006371430273354248_116_00008413466884444997_017_00004790186692534748_116_00003338886116348349_015_00000816496580927726_0,
  016_00003475074309356185_015_00000602860481210279_118_00021063155657627917_117_00028960513089293993_017_00007932322929028508_116_00003338886116348349_015_00000816496580927726_0,
  016_00003475074309356185_015_00000602860481210279_016_00005478947313363668_117_00027957346621018414_017_00011074459165522269_116_00003338886116348349_015_00000816496580927726_0,
  016_00002975113973079973_016_00005354595956047504_118_00032219192657510165_117_00014916182533436123_016_00001421659540201603_116_00003338886116348349_015_00000816496580927726_0,
  016_00002975113973079973_016_00005354595956047504_116_00008968120601483845_016_00011248595893756042_016_00001735873163850979_116_00003338886116348349_015_00000816496580927726_0,
  016_00002475153636803477_016_00004680587099991834_017_00037497615783819194_116_00006507450594721428_016_00002050086787500355_116_00003338886116348349_015_00000816496580927726_0,
  017_00014752329642507697_016_00004680587099991834_019_00012489183421365824_116_00007711250356652106_016_00002364300411149731_116_00003338886116348349_015_00000816496580927726_0,
  016_00002475153636803477_016_00005354595956047504_016_00010554944148310093_116_00013730249166305482_016_00002678514034799107_116_00003338886116348349_015_00000816496580927726_0,
  017_00019751933005269812_016_00004680587099991834_016_00006538770828352481_116_00003698584483549854_016_00002992727658448483_016_00029950108064592316_115_00001224744871391589_0,
  016_00002475153636803477_016_00005354595956047504_014_00000051442662033672_116_00009516949999548118_016_00003778261717571923_016_00029950108064592316_115_00001224744871391589_0,
  016_00002475153636803477_015_00000602860481210279_116_00005119287836524469_016_00006533713492860893_016_00004563795776695363_016_00029950108064592316_115_00001224744871391589_0,
  017_00019751933005269812_016_00005354595956047504_116_00007964077271494443_016_00009342579604032467_016_00005349329835818804_116_00003338886116348349_015_00000816496580927726_0,
  017_00019751933005269812_016_00005354595956047504_115_00000829875838149091_015_00001255271230251427_016_00005663543459468179_116_00003338886116348349_015_00000816496580927726_0,
  017_00019751933005269812_016_00005354595956047504_116_00010641526151466183_016_00016063794941478742_016_00005977757083117555_116_00003338886116348349_015_00000816496580927726_0,
  017_00019751933005269812_016_00005354595956047504_116_00002664959696550374_117_00040998510708600777_016_00006291970706766932_116_00003338886116348349_115_00001224744871391589_0,
  017_00019751933005269812_016_00005354595956047504_117_00010473343315674478_117_00023944680747916175_016_00006763291142240996_116_00003338886116348349_015_00000816496580927726_0,
  016_00002475153636803477_016_00005354595956047504_117_00016609163665609716_116_00007009033828859209_016_00007077504765890371_116_00003338886116348349_015_00000816496580927726_0,
  016_00002475153636803477_016_00005354595956047504_116_00005230848206523292_015_00000663403013968845_016_00007391718389539748_116_00003338886116348349_015_00000816496580927726_0,
  016_00002475153636803477_016_00005354595956047504_116_00010306845041469714_016_00011850495774721375_016_00007705932013189124_116_00003338886116348349_015_00000816496580927726_0,
  016_00002475153636803477_016_00004680587099991834_116_00002832300251548608_117_00005887684318956068_016_00008020145636838499_116_00003338886116348349_015_00000816496580927726_0,
  016_00002475153636803477_016_00004680587099991834_016_00006427210458353659_116_00011422966289271685_016_00008334359260487876_016_00029950108064592316_115_00001224744871391589_0,
  016_00002475153636803477_017_00040065782439365477_116_00008968120601483845_016_00011549545834238708_016_00009119893319611315_016_00029950108064592316_115_00001224744871391589_0,
  016_00002975113973079973_016_00004680587099991834_015_00001178210821829714_116_00009416633352720559_016_00009905427378734756_116_00003338886116348349_015_00000816496580927726_0,
  016_00002475153636803477_017_00040065782439365477_116_00005063507651525058_016_00006333080199205777_016_00010219641002384132_116_00003338886116348349_015_00000816496580927726_0,
  016_00002975113973079973_016_00004680587099991834_117_00021071578465562615_016_00005329913730930215_016_00010533854626033508_016_00029950108064592316_115_00001224744871391589_0,
  016_00002975113973079973_016_00004680587099991834_016_00006427210458353659_116_00008012200297134773_016_00011319388685156948_116_00003338886116348349_115_00001224744871391589_0,
  016_00003475074309356185_016_00004680587099991834_116_00010697306336465593_016_00006533713492860893_015_00001179070912063101_116_00003338886116348349_115_00001224744871391589_0,
  016_00003475074309356185_016_00005354595956047504_117_00029438606215474306_117_00028960513089293993_016_00012262029556105076_116_00003338886116348349_015_00000816496580927726_0,
  017_00039750346456326807_016_00005354595956047504_116_00004059464321535655_016_00005229597084102664_016_00012576243179754452_016_00029950108064592316_115_00001224744871391589_0,
  016_00003475074309356185_016_00005354595956047504_116_00010753086521465005_015_00001205112906837649_016_00013361777238877892_016_00029950108064592316_115_00001224744871391589_0,
  016_00003475074309356185_016_00004680587099991834_116_00012538052441446166_017_00024207309729310825_016_00014147311298001333_116_00003338886116348349_015_00000816496580927726_0,
  016_00002975113973079973_016_00004680587099991834_116_00005509749131520348_015_00001255271230251427_016_00014461524921650708_116_00003338886116348349_015_00000816496580927726_0,
  016_00003475074309356185_016_00005354595956047504_016_00003861321948380742_117_00004884517850680491_016_00014775738545300083_116_00003338886116348349_015_00000816496580927726_0,
  016_00003475074309356185_016_00005354595956047504_116_00013542095771435567_016_00018270761171684984_015_00001508995216894946_016_00029950108064592316_115_00001224744871391589_0,
  016_00003475074309356185_016_00004680587099991834_116_00001772476736559794_016_00006132446905550669_014_00000158754862280729_116_00003338886116348349_015_00000816496580927726_0,
  016_00003475074309356185_016_00004680587099991834_115_00001092042707646324_016_00011649862481066267_016_00016189699851722277_116_00003338886116348349_115_00001224744871391589_0,
  016_00003475074309356185_016_00004680587099991834_116_00006848473571506217_017_00004143980363799563_015_00001666102028719634_116_00003338886116348349_015_00000816496580927726_0,
  016_00003475074309356185_017_00040065782439365477_116_00013988337251430858_015_00000723593002065379_016_00016975233910845717_116_00003338886116348349_015_00000816496580927726_0,
  016_00003475074309356185_017_00040065782439365477_116_00007350495236500919_017_00024207309729310825_016_00017289447534495093_116_00003338886116348349_115_00001224744871391589_0,
  016_00002975113973079973_016_00002658560531825208_016_00003861321948380742_117_00007894017255507152_016_00017760767969969156_116_00003338886116348349_015_00000816496580927726_0,
  016_00002975113973079973_017_00019845516757699214_015_00002126473966819705_116_00017742915039407734_016_00018074981593618533_116_00003338886116348349_015_00000816496580927726_0,
  016_00002475153636803477_017_00013105428197142516_116_00008521879121488555_016_00008239096488929353_016_00018389195217267909_116_00003338886116348349_115_00001224744871391589_0,
  016_00002475153636803477_017_00013105428197142516_017_00017974551034025257_116_00005403967479618307_016_00018860515652741972_116_00003338886116348349_115_00001224744871391589_0,
  017_00019751933005269812_017_00013105428197142516_017_00041402228733777985_117_00030966846025845146_016_00019331836088216037_116_00003338886116348349_115_00001224744871391589_0,
  017_00019751933005269812_017_00013105428197142516_016_00007375473603343651_116_00009516949999548118_014_00000198031565236901_116_00003338886116348349_115_00001224744871391589_1]

/-- lr/data.csv 6002-6101 -/
def dataCsv60 : List ℕ := [
  017_00019751933005269812_017_00013105428197142516_116_00006011770796515049_016_00003223264147551537_116_00016959837443286896_016_00029950108064592316_115_00001224744871391589_0,
  017_00019751933005269812_017_00013105428197142516_116_00008856560231485022_016_00007336246667481341_116_00016174303384163455_116_00003338886116348349_115_00001224744871391589_0,
  016_00002475153636803477_017_00019845516757699214_016_00008044835823336586_116_00008513783531272554_115_00001570298294868939_116_00003338886116348349_015_00000816496580927726_0,
  017_00019751933005269812_017_00013105428197142516_117_00005453126665727467_117_00037989011303774045_116_00015388769325040015_116_00003338886116348349_015_00000816496580927726_0,
  016_00002475153636803477_016_00002658560531825208_016_00012395690253290663_115_00001352961587265037_115_00001507455570139064_116_00003338886116348349_015_00000816496580927726_0,
  016_00002975113973079973_017_00033325693878808776_017_00017416749184031147_117_00016922515469987276_116_00014760342077741262_116_00003338886116348349_015_00000816496580927726_0,
  016_00002975113973079973_017_00033325693878808776_016_00034428863328058106_116_00022056530852992657_116_00014446128454091887_116_00003338886116348349_115_00001224744871391589_0,
  016_00003475074309356185_017_00040065782439365477_115_00001058574596646677_016_00014559045239065398_116_00013974808018617824_116_00003338886116348349_115_00001224744871391589_0,
  016_00003475074309356185_016_00004680587099991834_116_00006011770796515049_117_00006890850787231645_116_00013503487583143758_116_00003338886116348349_015_00000816496580927726_0,
  016_00002975113973079973_017_00040065782439365477_016_00021878321703190577_116_00018043864979890403_116_00013189273959494383_116_00003338886116348349_015_00000816496580927726_0,
  016_00003475074309356185_016_00004680587099991834_116_00006179111351513282_016_00003423897441206646_116_00012875060335845006_016_00029950108064592316_115_00001224744871391589_0,
  017_00039750346456326807_016_00005354595956047504_017_00014069938084066472_117_00037989011303774045_116_00012089526276721567_116_00003338886116348349_015_00000816496580927726_0,
  017_00039750346456326807_015_00000602860481210279_116_00006346451906511517_016_00004025797322171985_115_00001177531265307219_016_00029950108064592316_115_00001224744871391589_0,
  016_00003475074309356185_016_00005354595956047504_016_00003247739913387218_116_00009516949999548118_116_00010989778593948751_116_00003338886116348349_015_00000816496580927726_0,
  017_00039750346456326807_016_00005354595956047504_017_00044191237983748544_116_00007209667122514325_116_00010675564970299374_016_00029950108064592316_115_00001224744871391589_0,
  017_00039750346456326807_016_00005354595956047504_117_00010473343315674478_116_00001993201487481394_116_00009890030911175934_116_00003338886116348349_115_00001224744871391589_0,
  016_00003475074309356185_016_00004680587099991834_116_00006346451906511517_016_00005329913730930215_115_00000941871047570187_116_00003338886116348349_015_00000816496580927726_0,
  017_00039750346456326807_015_00000602860481210279_115_00000785251690149562_117_00017925681938262783_116_00009104496852052494_116_00003338886116348349_015_00000816496580927726_0,
  017_00039750346456326807_015_00000602860481210279_017_00010165325134107683_116_00008413466884444997_116_00008790283228403118_116_00003338886116348349_115_00001224744871391589_0,
  016_00003475074309356185_016_00005354595956047504_117_00011031145165668592_016_00003925480675344427_116_00008318962792929054_116_00003338886116348349_015_00000816496580927726_0,
  016_00003475074309356185_016_00005354595956047504_016_00004474903983374266_116_00005103017539135641_116_00008004749169279678_116_00003338886116348349_015_00000816496580927726_0,
  016_00003475074309356185_016_00005354595956047504_015_00001535204005825946_116_00018645764860855742_116_00007690535545630302_116_00003338886116348349_015_00000816496580927726_0,
  016_00003475074309356185_015_00000602860481210279_117_00009915541465680366_117_00005887684318956068_116_00007376321921980926_116_00003338886116348349_015_00000816496580927726_0,
  016_00003475074309356185_015_00000602860481210279_116_00009470142266478546_016_00011248595893756042_115_00000706210829833155_116_00003338886116348349_115_00001224744871391589_0,
  016_00003475074309356185_015_00000602860481210279_116_00010195284671470892_015_00002539324309644148_116_00006590787862857486_116_00003338886116348349_015_00000816496580927726_1,
  016_00003475074309356185_015_00000670261366815846_116_00011310888371459118_016_00013355245477134718_115_00000627657423920811_116_00003338886116348349_015_00000816496580927726_0,
  016_00003475074309356185_015_00000670261366815846_116_00007573615976498564_016_00008339413135756903_116_00005962360615558734_116_00003338886116348349_015_00000816496580927726_0,
  016_00003475074309356185_015_00000670261366815846_116_00007015814126504452_016_00004326747262654651_116_00005648146991909357_116_00003338886116348349_115_00001224744871391589_0,
  016_00002975113973079973_015_00000602860481210279_117_00037247832115391877_016_00007637196607964014_116_00005176826556435293_116_00003338886116348349_015_00000816496580927726_0,
  016_00003475074309356185_016_00005354595956047504_116_00004840386911527413_015_00000793814654844668_117_00048626129327859174_116_00003338886116348349_115_00001224744871391589_0,
  016_00002975113973079973_016_00004680587099991834_116_00007908297086495032_015_00001375651206444495_116_00004391292497311854_116_00003338886116348349_015_00000816496580927726_0,
  016_00002975113973079973_016_00004680587099991834_116_00004673046356529179_017_00006150313300350718_117_00040770788736624775_116_00003338886116348349_015_00000816496580927726_0,
  016_00003475074309356185_016_00005354595956047504_016_00012005228958294785_116_00012325816110719694_117_00037628652500131016_116_00003338886116348349_015_00000816496580927726_0,
  016_00002975113973079973_015_00000602860481210279_117_00037805633965385993_117_00020935181343089515_117_00034486516263637257_116_00003338886116348349_015_00000816496580927726_0,
  016_00002975113973079973_016_00005354595956047504_116_00008354538566490322_016_00008138779842101795_115_00000313443800271435_116_00003338886116348349_115_00001224744871391589_0,
  016_00002975113973079973_015_00000602860481210279_016_00009104659338325399_116_00009717583293203229_117_00026631175672402857_116_00003338886116348349_115_00001224744871391589_0,
  016_00002975113973079973_015_00000670261366815846_116_00007685176346497387_016_00014659361885892956_117_00021917971317662216_116_00003338886116348349_115_00001224744871391589_0,
  016_00003475074309356185_015_00000737662252421413_116_00006290671721512106_016_00006232763552378227_117_00017204766962921575_116_00003338886116348349_015_00000816496580927726_0,
  016_00003475074309356185_015_00000670261366815846_116_00002386058771553318_117_00016922515469987276_117_00014062630726427813_116_00003338886116348349_015_00000816496580927726_0,
  016_00002975113973079973_015_00000602860481210279_116_00005900210426516227_016_00002621364266586198_117_00010920494489934053_116_00003338886116348349_015_00000816496580927726_0,
  016_00003475074309356185_015_00000737662252421413_115_00000562130950151917_015_00000663403013968845_117_00007778358253440293_116_00003338886116348349_115_00001224744871391589_0,
  016_00003475074309356185_015_00000670261366815846_116_00006736913201507395_016_00009342579604032467_117_00003065153898699653_116_00003338886116348349_115_00001224744871391589_0,
  017_00039750346456326807_015_00000670261366815846_016_00002299476768397227_117_00033976345430671806_018_00016480504560409875_116_00003338886116348349_115_00001224744871391589_0,
  016_00003475074309356185_015_00000602860481210279_116_00003947903951536833_017_00018188310919657433_017_00006361254810781627_116_00003338886116348349_115_00001224744871391589_0,
  017_00039750346456326807_015_00000602860481210279_117_00009357739615686254_017_00017185144451381926_017_00011074459165522269_116_00003338886116348349_115_00001224744871391589_0,
  017_00039750346456326807_015_00000602860481210279_116_00012705392996444398_016_00015863161647823627_016_00001578766352026291_116_00003338886116348349_015_00000816496580927726_0,
  017_00044749949819088924_015_00000670261366815846_116_00012426492071447344_016_00016565378175616523_017_00018929799756756668_116_00003338886116348349_015_00000816496580927726_0,
  017_00044749949819088924_015_00000670261366815846_014_00000175274672732365_114_00000164387986306495_016_00002207193599325043_016_00029950108064592316_115_00001224744871391589_0,
  017_00044749949819088924_015_00000670261366815846_016_00000960752328411357_116_00001190668312860946_016_00002992727658448483_116_00003338886116348349_115_00001224744871391589_0,
  017_00044749949819088924_015_00000670261366815846_016_00001574334363404881_115_00000570491742010098_016_00003464048093922547_116_00003338886116348349_115_00001224744871391589_0,
  017_00044749949819088924_015_00000737662252421413_018_00040295047841724455_117_00022941514279640599_016_00003935368529396611_116_00003338886116348349_115_00001224744871391589_0,
  017_00044749949819088924_015_00000670261366815846_114_00000087449998614862_016_00011248595893756042_017_00044066889648706753_116_00003338886116348349_015_00000816496580927726_0,
  017_00044749949819088924_015_00000670261366815846_016_00025894495023148187_116_00019849564622786418_016_00004720902588520051_116_00003338886116348349_015_00000816496580927726_0,
  017_00039750346456326807_015_00000602860481210279_016_00011670547848298316_116_00010118849880513456_016_00005035116212169427_116_00003338886116348349_015_00000816496580927726_0,
  016_00003475074309356185_016_00005354595956047504_117_00011588947015662704_018_00011344809589729025_016_00005349329835818804_016_00029950108064592316_115_00001224744871391589_0,
  016_00003475074309356185_016_00005354595956047504_116_00003557442656540954_017_00020194643856208588_016_00006134863894942243_116_00003338886116348349_015_00000816496580927726_0,
  017_00039750346456326807_016_00005354595956047504_016_00005311606758365435_115_00001082106640830635_016_00006449077518591619_116_00003338886116348349_015_00000816496580927726_0,
  017_00039750346456326807_016_00005354595956047504_016_00008379516933333053_116_00007109350475686768_016_00006763291142240996_116_00003338886116348349_015_00000816496580927726_0,
  017_00044749949819088924_015_00000602860481210279_016_00005423167128364257_116_00004701750951825417_016_00007077504765890371_116_00003338886116348349_115_00001224744871391589_0,
  017_00044749949819088924_015_00000670261366815846_016_00038835497943011594_116_00024263497083198895_016_00007548825201364435_116_00003338886116348349_015_00000816496580927726_0,
  017_00049749553181853884_015_00000737662252421413_017_00042517832433766206_117_00044008010113427437_016_00007863038825013812_116_00003338886116348349_015_00000816496580927726_0,
  016_00005474915654461884_015_00000737662252421413_017_00044191237983748544_116_00010520116467823681_016_00008177252448663187_016_00029950108064592316_115_00001224744871391589_0,
  016_00005474915654461884_016_00008050631380269416_116_00007350495236500919_016_00013054295536652054_016_00008962786507786628_116_00003338886116348349_115_00001224744871391589_0,
  016_00005474915654461884_015_00000737662252421413_117_00049519472815262355_016_00003323580794379088_016_00009434106943260692_116_00003338886116348349_015_00000816496580927726_0,
  016_00005474915654461884_015_00000737662252421413_016_00019535553933215304_115_00001623816533699439_016_00009748320566910068_116_00003338886116348349_015_00000816496580927726_0,
  017_00049749553181853884_015_00000602860481210279_016_00001630114548404292_117_00017925681938262783_016_00010062534190559445_116_00003338886116348349_015_00000816496580927726_0,
  017_00049749553181853884_015_00000670261366815846_016_00014794238208265347_116_00014231832400443263_015_00001037674781420882_116_00003338886116348349_015_00000816496580927726_0,
  017_00049749553181853884_015_00000670261366815846_017_00024110371383960497_117_00024947847216191754_016_00010690961437858195_116_00003338886116348349_015_00000816496580927726_0,
  017_00049749553181853884_015_00000602860481210279_015_00002834882316312228_116_00022156847499820214_016_00011005175061507573_116_00003338886116348349_115_00001224744871391589_0,
  017_00044749949819088924_015_00000602860481210279_017_00034708606533848635_116_00006005867360583647_016_00011476495496981636_116_00003338886116348349_015_00000816496580927726_0,
  017_00044749949819088924_015_00000602860481210279_017_00042517832433766206_116_00008012200297134773_015_00001179070912063101_116_00003338886116348349_015_00000816496580927726_0,
  017_00044749949819088924_016_00005354595956047504_116_00004840386911527413_016_00003624530734861761_016_00012104922744280389_116_00003338886116348349_115_00001224744871391589_0,
  017_00044749949819088924_016_00005354595956047504_016_00008714198043329521_116_00009817899940030786_016_00012576243179754452_116_00003338886116348349_115_00001224744871391589_0,
  017_00044749949819088924_016_00005354595956047504_015_00001401331561827359_115_00001383056581313304_016_00013047563615228517_116_00003338886116348349_115_00001224744871391589_0,
  017_00049749553181853884_016_00005354595956047504_118_00032219192657510165_117_00006890850787231645_015_00001351888405070258_116_00003338886116348349_115_00001224744871391589_0,
  017_00049749553181853884_015_00000602860481210279_016_00015296259873260047_116_00011523282936099244_016_00013990204486176645_116_00003338886116348349_015_00000816496580927726_0,
  017_00049749553181853884_015_00000602860481210279_116_00002609179511550963_117_00032973178962396227_015_00001430441810982602_116_00003338886116348349_015_00000816496580927726_0,
  017_00044749949819088924_016_00004680587099991834_116_00003334321916543309_016_00003323580794379088_016_00014618631733475396_116_00003338886116348349_015_00000816496580927726_0,
  017_00039750346456326807_016_00004680587099991834_116_00011143547816460884_015_00001917361099313299_016_00014932845357124773_116_00003338886116348349_015_00000816496580927726_1,
  017_00039750346456326807_016_00004680587099991834_116_00009358581896479724_016_00004728013849964882_016_00015247058980774149_116_00003338886116348349_115_00001224744871391589_0,
  017_00044749949819088924_016_00004680587099991834_116_00003947903951536833_117_00037989011303774045_016_00015718379416248212_116_00003338886116348349_015_00000816496580927726_0,
  017_00044749949819088924_016_00004680587099991834_117_00012146748865656816_017_00017185144451381926_015_00001603259303989759_116_00003338886116348349_015_00000816496580927726_0,
  017_00044749949819088924_016_00004680587099991834_116_00010418405411468539_016_00006433396846033335_016_00016346806663546964_116_00003338886116348349_015_00000816496580927726_0,
  017_00044749949819088924_016_00004680587099991834_116_00008354538566490322_016_00010044796131825364_015_00001666102028719634_116_00003338886116348349_015_00000816496580927726_0,
  017_00039750346456326807_017_00040065782439365477_117_00018840371065586167_117_00037989011303774045_116_00016959837443286896_116_00003338886116348349_115_00001224744871391589_0,
  017_00044749949819088924_017_00040065782439365477_118_00004329100157804543_117_00032973178962396227_115_00001648851700781283_116_00003338886116348349_015_00000816496580927726_0,
  017_00044749949819088924_016_00005354595956047504_117_00031669813615450754_117_00029963679557569567_116_00016174303384163455_116_00003338886116348349_015_00000816496580927726_0,
  017_00044749949819088924_016_00005354595956047504_016_00003359300283386041_116_00007009033828859209_116_00015860089760514078_116_00003338886116348349_115_00001224744871391589_0,
  017_00044749949819088924_016_00005354595956047504_116_00003501662471541543_117_00009900350192058306_116_00015388769325040015_116_00003338886116348349_015_00000816496580927726_0,
  017_00044749949819088924_016_00004680587099991834_117_00016609163665609716_117_00024947847216191754_115_00001507455570139064_116_00003338886116348349_015_00000816496580927726_0,
  017_00044749949819088924_016_00005354595956047504_016_00009439340448321867_116_00010921383055133904_116_00014760342077741262_116_00003338886116348349_015_00000816496580927726_0,
  017_00044749949819088924_016_00004680587099991834_116_00007071594311503863_016_00017568544643892088_116_00014446128454091887_116_00003338886116348349_015_00000816496580927726_0,
  017_00044749949819088924_016_00004680587099991834_016_00006650331198351305_116_00011523282936099244_116_00014131914830442511_116_00003338886116348349_015_00000816496580927726_0,
  017_00049749553181853884_016_00005354595956047504_116_00009135461156482079_016_00017267594703409421_116_00013817701206793134_116_00003338886116348349_015_00000816496580927726_0,
  017_00044749949819088924_016_00005354595956047504_116_00007629396161497976_016_00008138779842101795_116_00013503487583143758_116_00003338886116348349_115_00001224744871391589_0,
  017_00044749949819088924_016_00004680587099991834_116_00004840386911527413_016_00007336246667481341_116_00013032167147669695_116_00003338886116348349_115_00001224744871391589_0,
  017_00039750346456326807_016_00004680587099991834_117_00031112011765456643_017_00008156646236901802_115_00001256084671219563_116_00003338886116348349_115_00001224744871391589_0,
  017_00044749949819088924_016_00005354595956047504_116_00003445882286542132_115_00000159193490017117_116_00012089526276721567_016_00029950108064592316_115_00001224744871391589_0,
  017_00039750346456326807_016_00004680587099991834_014_00000214878604081947_115_00001764259839258018_116_00011303992217598127_116_00003338886116348349_115_00001224744871391589_0,
  017_00044749949819088924_016_00004680587099991834_016_00003917102133380153_116_00011322649642444131_116_00010832671782124061_016_00029950108064592316_115_00001224744871391589_0]

/-- lr/data.csv 6102-6201 -/
def dataCsv61 : List ℕ := [
  017_00039750346456326807_016_00004680587099991834_015_00001936821337821707_115_00001894671480133841_116_00010047137723000623_116_00003338886116348349_115_00001224744871391589_0,
  016_00003475074309356185_017_00040065782439365477_016_00004307563428376032_116_00010419799820996123_116_00009575817287526558_116_00003338886116348349_015_00000816496580927726_0,
  016_00003475074309356185_016_00004680587099991834_116_00005398188761521525_016_00003223264147551537_116_00009261603663877183_116_00003338886116348349_015_00000816496580927726_0,
  017_00039750346456326807_016_00005354595956047504_116_00007350495236500919_016_00005129280437275106_116_00008947390040227806_116_00003338886116348349_015_00000816496580927726_0,
  017_00039750346456326807_016_00005354595956047504_117_00043383652465327116_017_00013172478578279617_115_00000863317641657843_116_00003338886116348349_115_00001224744871391589_0,
  017_00039750346456326807_015_00000602860481210279_117_00009357739615686254_016_00006232763552378227_116_00008161855981104366_116_00003338886116348349_115_00001224744871391589_0,
  017_00044749949819088924_015_00000670261366815846_116_00005955990611515638_016_00008138779842101795_116_00007690535545630302_116_00003338886116348349_015_00000816496580927726_0,
  017_00044749949819088924_015_00000670261366815846_115_00000562130950151917_016_00009041629663549801_116_00007376321921980926_116_00003338886116348349_015_00000816496580927726_0,
  017_00039750346456326807_015_00000602860481210279_016_00007765934898339529_116_00011924549523409467_115_00000706210829833155_116_00003338886116348349_115_00001224744871391589_0,
  017_00039750346456326807_015_00000602860481210279_117_00013820154415639155_117_00012909849596884967_116_00006590787862857486_116_00003338886116348349_115_00001224744871391589_0,
  016_00003475074309356185_016_00005354595956047504_117_00002664117415756904_017_00013172478578279617_116_00006119467427383422_116_00003338886116348349_015_00000816496580927726_0,
  016_00003475074309356185_016_00005354595956047504_117_00029438606215474306_017_00012169312110004112_116_00005805253803734046_116_00003338886116348349_115_00001224744871391589_0,
  016_00003475074309356185_016_00005354595956047504_015_00002154364059319411_116_00018043864979890403_116_00005333933368259982_116_00003338886116348349_015_00000816496580927726_0,
  016_00003475074309356185_016_00005354595956047504_016_00010331823408312446_116_00010018533233685898_116_00005019719744610606_116_00003338886116348349_115_00001224744871391589_0,
  017_00039750346456326807_016_00005354595956047504_017_00005702910334154783_117_00045011176581703016_117_00045483993091365416_116_00003338886116348349_115_00001224744871391589_0,
  017_00039750346456326807_015_00000602860481210279_117_00045614859865303564_016_00007737513254791571_117_00040770788736624775_116_00003338886116348349_015_00000816496580927726_0,
  017_00039750346456326807_015_00000602860481210279_116_00004784606726528002_016_00003925480675344427_117_00037628652500131016_116_00003338886116348349_015_00000816496580927726_0,
  017_00039750346456326807_015_00000670261366815846_017_00021879163983984046_016_00004427063909482209_117_00034486516263637257_116_00003338886116348349_015_00000816496580927726_0,
  017_00044749949819088924_015_00000737662252421413_115_00001192447040645264_016_00021480893870166784_115_00000313443800271435_116_00003338886116348349_115_00001224744871391589_0,
  017_00044749949819088924_015_00000737662252421413_117_00037805633965385993_117_00006890850787231645_117_00026631175672402857_116_00003338886116348349_015_00000816496580927726_0,
  017_00044749949819088924_016_00008050631380269416_117_00037247832115391877_019_00013131449069732513_117_00023489039435909095_116_00003338886116348349_115_00001224744871391589_0,
  017_00044749949819088924_015_00000737662252421413_117_00045614859865303564_116_00002595101368446733_117_00018775835081168454_116_00003338886116348349_015_00000816496580927726_0,
  017_00049749553181853884_015_00000670261366815846_116_00007629396161497976_016_00015361578413685846_117_00015633698844674693_116_00003338886116348349_015_00000816496580927726_0,
  017_00044749949819088924_015_00000602860481210279_116_00003445882286542132_017_00015178811514830773_117_00012491562608180934_116_00003338886116348349_015_00000816496580927726_0,
  017_00044749949819088924_015_00000602860481210279_015_00001049916396331068_115_00000991821658685834_117_00009349426371687174_116_00003338886116348349_115_00001224744871391589_0,
  017_00044749949819088924_015_00000602860481210279_016_00025448253543152894_116_00019849564622786418_118_00046362220169465326_116_00003338886116348349_015_00000816496580927726_0,
  017_00044749949819088924_015_00000602860481210279_116_00009414362081479135_015_00001255271230251427_118_00014940857804527726_116_00003338886116348349_015_00000816496580927726_0,
  017_00044749949819088924_015_00000602860481210279_116_00017335148351395533_016_00026496726211544606_018_00016480504560409875_116_00003338886116348349_015_00000816496580927726_0,
  017_00044749949819088924_015_00000670261366815846_117_00022187182165550842_116_00001993201487481394_017_00004790186692534748_116_00003338886116348349_015_00000816496580927726_0,
  017_00049749553181853884_015_00000670261366815846_116_00001716696551560383_016_00006934980080171117_017_00007932322929028508_116_00003338886116348349_115_00001224744871391589_0,
  017_00049749553181853884_015_00000602860481210279_117_00036690030265397766_017_00042264306158271003_017_00012645527283769148_116_00003338886116348349_015_00000816496580927726_0,
  017_00049749553181853884_015_00000670261366815846_016_00005646287868361902_117_00023944680747916175_016_00001578766352026291_016_00029950108064592316_115_00001224744871391589_0,
  016_00005474915654461884_015_00000737662252421413_116_00006123331166513871_015_00000252104761975864_016_00002364300411149731_116_00003338886116348349_015_00000816496580927726_0,
  016_00005474915654461884_015_00000737662252421413_117_00038363435815380104_016_00000915981270517738_016_00002678514034799107_116_00003338886116348349_015_00000816496580927726_0,
  017_00049749553181853884_015_00000670261366815846_017_00023552569533966383_117_00029963679557569567_016_00002992727658448483_116_00003338886116348349_015_00000816496580927726_0,
  017_00049749553181853884_015_00000602860481210279_016_00011224306368303028_115_00001112201634878902_016_00003306941282097859_116_00003338886116348349_015_00000816496580927726_0,
  017_00044749949819088924_016_00005354595956047504_115_00000829875838149091_017_00006150313300350718_017_00036211549057472353_016_00029950108064592316_115_00001224744871391589_0,
  017_00044749949819088924_016_00005354595956047504_016_00025057792248157016_114_00000203511478569242_017_00044066889648706753_116_00003338886116348349_115_00001224744871391589_0,
  017_00039750346456326807_016_00004680587099991834_116_00004840386911527413_016_00003022630853896422_017_00048780094003447394_116_00003338886116348349_115_00001224744871391589_0,
  017_00039750346456326807_016_00004680587099991834_016_00002634157878393695_116_00006607767241548985_016_00005349329835818804_116_00003338886116348349_015_00000816496580927726_0,
  017_00039750346456326807_016_00004680587099991834_017_00028014984333919285_115_00000570491742010098_016_00005663543459468179_116_00003338886116348349_015_00000816496580927726_0,
  017_00039750346456326807_016_00005354595956047504_117_00029438606215474306_016_00005731180318240445_016_00005977757083117555_116_00003338886116348349_015_00000816496580927726_0,
  017_00044749949819088924_015_00000602860481210279_016_00012061009143294195_116_00012125182817064584_016_00006291970706766932_116_00003338886116348349_015_00000816496580927726_0,
  017_00049749553181853884_015_00000602860481210279_017_00020205758434001708_116_00005403967479618307_016_00006606184330416307_116_00003338886116348349_115_00001224744871391589_0,
  016_00005474915654461884_015_00000737662252421413_017_00042517832433766206_117_00022941514279640599_016_00007077504765890371_116_00003338886116348349_115_00001224744871391589_0,
  016_00005474915654461884_015_00000737662252421413_116_00005732869871517993_017_00018188310919657433_016_00007548825201364435_116_00003338886116348349_115_00001224744871391589_0,
  016_00005474915654461884_015_00000737662252421413_117_00038363435815380104_017_00006150313300350718_016_00008020145636838499_116_00003338886116348349_115_00001224744871391589_0,
  016_00005474915654461884_015_00000737662252421413_016_00030691590933097554_115_00002025083121009664_016_00008491466072312563_116_00003338886116348349_115_00001224744871391589_0,
  016_00005474915654461884_016_00008050631380269416_017_00014069938084066472_117_00029963679557569567_016_00008962786507786628_116_00003338886116348349_015_00000816496580927726_0,
  017_00049749553181853884_015_00000737662252421413_116_00006625352831508573_016_00007436563314308898_016_00009277000131436004_116_00003338886116348349_115_00001224744871391589_0,
  016_00005474915654461884_015_00000737662252421413_016_00009606681003320101_116_00010921383055133904_016_00009748320566910068_116_00003338886116348349_015_00000816496580927726_0,
  016_00005474915654461884_016_00008050631380269416_017_00009049721434119458_116_00004701750951825417_016_00010062534190559445_116_00003338886116348349_015_00000816496580927726_0,
  016_00005474915654461884_015_00000737662252421413_016_00002968838988390162_117_00043004843645151863_015_00001037674781420882_116_00003338886116348349_115_00001224744871391589_0,
  017_00049749553181853884_015_00000737662252421413_116_00016888906871400242_015_00002449039327499348_016_00010848068249682883_116_00003338886116348349_015_00000816496580927726_1,
  017_00049749553181853884_015_00000602860481210279_016_00012618810993288307_116_00015836898749684165_015_00001116228187333226_116_00003338886116348349_115_00001224744871391589_0,
  017_00049749553181853884_015_00000670261366815846_016_00005311606758365435_116_00008814733471755224_016_00011633602308806323_116_00003338886116348349_015_00000816496580927726_0,
  016_00005474915654461884_015_00000737662252421413_116_00001716696551560383_017_00015178811514830773_014_00000119478159324557_116_00003338886116348349_015_00000816496580927726_0,
  016_00005474915654461884_016_00008050631380269416_015_00001312083265828301_116_00010419799820996123_016_00012262029556105076_116_00003338886116348349_015_00000816496580927726_0,
  016_00005474915654461884_015_00000670261366815846_016_00007710154713340118_116_00010921383055133904_016_00012576243179754452_116_00003338886116348349_015_00000816496580927726_0,
  017_00049749553181853884_015_00000670261366815846_116_00007796736716496209_015_00001807012787802987_016_00012890456803403827_116_00003338886116348349_015_00000816496580927726_1,
  017_00049749553181853884_015_00000602860481210279_017_00017416749184031147_116_00006005867360583647_016_00013204670427053204_116_00003338886116348349_015_00000816496580927726_0,
  017_00049749553181853884_015_00000602860481210279_116_00003334321916543309_016_00004326747262654651_015_00001351888405070258_116_00003338886116348349_015_00000816496580927726_0,
  017_00049749553181853884_016_00005354595956047504_017_00010723126984101795_116_00005103017539135641_016_00013833097674351955_116_00003338886116348349_015_00000816496580927726_0,
  017_00039750346456326807_016_00004680587099991834_115_00001008372430147207_016_00008138779842101795_016_00014147311298001333_116_00003338886116348349_015_00000816496580927726_0,
  017_00044749949819088924_016_00004680587099991834_016_00006538770828352481_116_00009316316705893005_016_00014461524921650708_016_00029950108064592316_115_00001224744871391589_0,
  017_00044749949819088924_016_00004680587099991834_117_00008799937765692141_117_00042001677176876356_016_00015247058980774149_116_00003338886116348349_015_00000816496580927726_0,
  017_00044749949819088924_016_00004680587099991834_116_00007573615976498564_017_00006150313300350718_016_00015561272604423524_016_00029950108064592316_115_00001224744871391589_0,
  017_00044749949819088924_016_00004680587099991834_116_00009860603561474425_016_00011649862481066267_016_00016346806663546964_116_00003338886116348349_115_00001224744871391589_0,
  016_00003475074309356185_017_00040065782439365477_016_00013343953398280655_116_00012927715991685031_016_00016818127099021027_116_00003338886116348349_115_00001224744871391589_0,
  016_00003475074309356185_017_00033325693878808776_116_00005063507651525058_117_00017925681938262783_016_00017289447534495093_116_00003338886116348349_015_00000816496580927726_0,
  017_00039750346456326807_017_00033325693878808776_017_00011280928834095907_018_00011344809589729025_016_00017603661158144468_016_00029950108064592316_115_00001224744871391589_0,
  017_00039750346456326807_017_00040065782439365477_116_00006848473571506217_016_00002220097679275974_016_00018389195217267909_116_00003338886116348349_015_00000816496580927726_0,
  017_00039750346456326807_017_00040065782439365477_017_00021321362133989932_117_00020935181343089515_016_00018703408840917284_116_00003338886116348349_015_00000816496580927726_1,
  017_00039750346456326807_016_00004680587099991834_016_00005255826573366024_116_00012225499463892138_116_00016959837443286896_116_00003338886116348349_015_00000816496580927726_0,
  017_00044749949819088924_016_00004680587099991834_017_00019090154734013484_116_00008814733471755224_116_00016645623819637518_116_00003338886116348349_015_00000816496580927726_0,
  017_00044749949819088924_016_00005354595956047504_117_00012146748865656816_016_00004326747262654651_116_00016331410195988143_116_00003338886116348349_015_00000816496580927726_0,
  017_00049749553181853884_015_00000602860481210279_117_00013262352565645041_117_00026954180152742907_116_00016017196572338768_116_00003338886116348349_015_00000816496580927726_0,
  017_00049749553181853884_016_00005354595956047504_117_00006568730365715691_016_00005329913730930215_115_00001570298294868939_116_00003338886116348349_015_00000816496580927726_0,
  016_00005474915654461884_015_00000602860481210279_116_00014323018361427324_015_00002800147591395795_116_00015388769325040015_116_00003338886116348349_015_00000816496580927726_1,
  016_00005474915654461884_015_00000602860481210279_116_00007964077271494443_016_00005129280437275106_115_00001507455570139064_116_00003338886116348349_115_00001224744871391589_0,
  017_00049749553181853884_015_00000602860481210279_116_00002609179511550963_016_00004627697203137324_116_00014603235265916574_116_00003338886116348349_015_00000816496580927726_0,
  017_00049749553181853884_016_00005354595956047504_015_00002433264984316467_114_00000203511478569242_114_00000142890216422672_116_00003338886116348349_015_00000816496580927726_0,
  017_00049749553181853884_016_00005354595956047504_116_00003557442656540954_116_00004701750951825417_116_00013974808018617824_116_00003338886116348349_015_00000816496580927726_0,
  017_00049749553181853884_015_00000602860481210279_116_00002441838956552729_117_00026954180152742907_116_00013660594394968446_016_00029950108064592316_115_00001224744871391589_0,
  017_00049749553181853884_015_00000670261366815846_017_00007934117734131232_117_00042001677176876356_116_00012875060335845006_116_00003338886116348349_015_00000816496580927726_0,
  016_00005474915654461884_015_00000670261366815846_015_00002115317929819823_116_00018344814920373074_115_00001256084671219563_116_00003338886116348349_015_00000816496580927726_0,
  016_00005474915654461884_015_00000670261366815846_116_00007015814126504452_015_00000663403013968845_116_00012246633088546255_116_00003338886116348349_115_00001224744871391589_0,
  017_00049749553181853884_015_00000670261366815846_116_00005677089686518582_016_00016063794941478742_115_00001177531265307219_116_00003338886116348349_015_00000816496580927726_0,
  017_00049749553181853884_015_00000602860481210279_117_00049519472815262355_016_00005931813611895553_116_00011461099029422814_116_00003338886116348349_015_00000816496580927726_0,
  017_00049749553181853884_015_00000602860481210279_016_00020706937818202937_116_00018144181626717961_115_00001114688540577344_116_00003338886116348349_115_00001224744871391589_0,
  017_00044749949819088924_015_00000602860481210279_016_00011726328033297728_116_00013629932519477927_116_00010675564970299374_116_00003338886116348349_015_00000816496580927726_0,
  017_00049749553181853884_015_00000602860481210279_016_00021041618928199406_116_00018043864979890403_116_00010361351346649998_016_00029950108064592316_115_00001224744871391589_0,
  017_00049749553181853884_015_00000602860481210279_116_00006179111351513282_016_00005329913730930215_116_00009575817287526558_116_00003338886116348349_015_00000816496580927726_0,
  017_00049749553181853884_015_00000602860481210279_017_00021879163983984046_115_00000159193490017117_116_00009261603663877183_116_00003338886116348349_015_00000816496580927726_0,
  017_00044749949819088924_016_00005354595956047504_017_00017974551034025257_118_00008718519775782523_116_00008947390040227806_116_00003338886116348349_015_00000816496580927726_0,
  017_00044749949819088924_016_00005354595956047504_016_00010610724333309502_116_00009817899940030786_115_00000863317641657843_116_00003338886116348349_015_00000816496580927726_0,
  017_00044749949819088924_016_00005354595956047504_016_00009048879153325988_116_00009617266646375675_116_00008318962792929054_116_00003338886116348349_015_00000816496580927726_0,
  017_00044749949819088924_016_00005354595956047504_117_00025533993265515514_016_00005831496965067996_116_00008004749169279678_116_00003338886116348349_015_00000816496580927726_0,
  017_00049749553181853884_015_00000602860481210279_017_00008491919584125346_116_00007309983769341876_116_00007690535545630302_116_00003338886116348349_115_00001224744871391589_0,
  017_00044749949819088924_015_00000602860481210279_117_00023302785865539066_016_00003223264147551537_116_00007219215110156237_116_00003338886116348349_015_00000816496580927726_0]

/-- lr/data.csv 6202-6301 -/
def dataCsv62 : List ℕ := [
  017_00049749553181853884_015_00000602860481210279_015_00000782171508333894_115_00001021916652734101_116_00006905001486506862_116_00003338886116348349_015_00000816496580927726_0,
  017_00049749553181853884_015_00000602860481210279_117_00016051361815615603_017_00045273805563097663_116_00006590787862857486_116_00003338886116348349_115_00001224744871391589_0,
  017_00049749553181853884_015_00000602860481210279_116_00013542095771435567_015_00001496031182637562_116_00006119467427383422_116_00003338886116348349_015_00000816496580927726_0,
  017_00049749553181853884_015_00000602860481210279_116_00007517835791499152_017_00018188310919657433_116_00005805253803734046_116_00003338886116348349_015_00000816496580927726_0,
  017_00044749949819088924_016_00005354595956047504_117_00011031145165668592_116_00005103017539135641_115_00000549104018008467_116_00003338886116348349_115_00001224744871391589_0,
  017_00044749949819088924_016_00004680587099991834_016_00008769978228328932_115_00001272708269802992_116_00005019719744610606_116_00003338886116348349_115_00001224744871391589_0,
  017_00039750346456326807_017_00040065782439365477_016_00007263913233344829_114_00000116235995829268_117_00045483993091365416_116_00003338886116348349_115_00001224744871391589_0,
  016_00003475074309356185_017_00040065782439365477_116_00005119287836524469_017_00007153479768626296_117_00040770788736624775_116_00003338886116348349_015_00000816496580927726_0,
  016_00003475074309356185_017_00040065782439365477_116_00006736913201507395_016_00006333080199205777_117_00037628652500131016_116_00003338886116348349_115_00001224744871391589_0,
  016_00003475074309356185_017_00040065782439365477_116_00007350495236500919_017_00005147146832075141_117_00032915448145390375_116_00003338886116348349_015_00000816496580927726_0,
  017_00039750346456326807_017_00033325693878808776_116_00005844430241516816_017_00045273805563097663_117_00029773311908896616_116_00003338886116348349_015_00000816496580927726_0,
  017_00039750346456326807_017_00040065782439365477_116_00009972163931473248_016_00008840996369894685_117_00026631175672402857_116_00003338886116348349_015_00000816496580927726_0,
  017_00039750346456326807_017_00040065782439365477_116_00007629396161497976_015_00001375651206444495_117_00023489039435909095_116_00003338886116348349_015_00000816496580927726_0,
  017_00044749949819088924_017_00040065782439365477_016_00000737631588413712_116_00005103017539135641_117_00020346903199415334_116_00003338886116348349_015_00000816496580927726_0,
  017_00044749949819088924_016_00004680587099991834_116_00008187198011492087_017_00042264306158271003_117_00017204766962921575_116_00003338886116348349_015_00000816496580927726_0,
  016_00005474915654461884_016_00005354595956047504_117_00009915541465680366_017_00010162979173452956_117_00014062630726427813_116_00003338886116348349_015_00000816496580927726_0,
  016_00005474915654461884_016_00005354595956047504_016_00010331823408312446_116_00012526449404374806_117_00010920494489934053_116_00003338886116348349_015_00000816496580927726_0,
  017_00049749553181853884_016_00004680587099991834_116_00004673046356529179_016_00006132446905550669_117_00007778358253440293_116_00003338886116348349_115_00001224744871391589_0,
  017_00049749553181853884_017_00040065782439365477_115_00000963748282147678_016_00010646696012790704_117_00003065153898699653_016_00029950108064592316_115_00001224744871391589_0,
  016_00005474915654461884_017_00040065782439365477_116_00007350495236500919_016_00003925480675344427_017_00004790186692534748_016_00029950108064592316_115_00001224744871391589_0,
  016_00005474915654461884_016_00005354595956047504_117_00038363435815380104_016_00009342579604032467_017_00012645527283769148_116_00003338886116348349_015_00000816496580927726_0,
  016_00005974875990738095_015_00000602860481210279_116_00010027944116472658_016_00010847329306445812_016_00001578766352026291_116_00003338886116348349_115_00001224744871391589_0,
  016_00005474915654461884_016_00005354595956047504_016_00014124875988272412_116_00014231832400443263_016_00002050086787500355_016_00029950108064592316_115_00001224744871391589_0,
  016_00005474915654461884_015_00000602860481210279_016_00000737631588413712_117_00020935181343089515_016_00002835620846623795_116_00003338886116348349_115_00001224744871391589_0,
  016_00005974875990738095_015_00000670261366815846_016_00004084442688378387_116_00007109350475686768_016_00003306941282097859_116_00003338886116348349_015_00000816496580927726_0,
  016_00005974875990738095_015_00000670261366815846_116_00006402232091510928_017_00014175645046555194_017_00036211549057472353_116_00003338886116348349_115_00001224744871391589_0,
  016_00006474836327014591_015_00000670261366815846_116_00011031987446462062_016_00019374244286788098_016_00004092475341221299_016_00029950108064592316_115_00001224744871391589_0,
  016_00005974875990738095_016_00005354595956047504_116_00003334321916543309_117_00017925681938262783_017_00048780094003447394_116_00003338886116348349_015_00000816496580927726_0,
  016_00005974875990738095_015_00000602860481210279_116_00007015814126504452_015_00001014511277865292_016_00005192223023994115_116_00003338886116348349_015_00000816496580927726_0,
  016_00006474836327014591_015_00000602860481210279_015_00003493088499305281_116_00022658430733957995_016_00005506436647643491_116_00003338886116348349_015_00000816496580927726_0,
  016_00006474836327014591_015_00000670261366815846_016_00005702068053361313_116_00007009033828859209_016_00005820650271292868_116_00003338886116348349_115_00001224744871391589_0,
  016_00006474836327014591_015_00000670261366815846_116_00002441838956552729_017_00008156646236901802_016_00006291970706766932_116_00003338886116348349_115_00001224744871391589_0,
  016_00006474836327014591_015_00000670261366815846_017_00020763560283995822_116_00009617266646375675_016_00006763291142240996_116_00003338886116348349_015_00000816496580927726_0,
  016_00005974875990738095_015_00000602860481210279_116_00004003684136536244_117_00028960513089293993_016_00007077504765890371_116_00003338886116348349_015_00000816496580927726_0,
  016_00005974875990738095_016_00005354595956047504_116_00003334321916543309_017_00012169312110004112_016_00007391718389539748_116_00003338886116348349_015_00000816496580927726_0,
  016_00006474836327014591_015_00000602860481210279_016_00003191959728387807_116_00006106184007411204_016_00007705932013189124_116_00003338886116348349_015_00000816496580927726_0,
  016_00006474836327014591_015_00000602860481210279_116_00001493575811562738_117_00030966846025845146_016_00008020145636838499_116_00003338886116348349_115_00001224744871391589_0,
  016_00006974796663290803_015_00000602860481210279_115_00000696003394150504_116_00001190668312860946_016_00008491466072312563_116_00003338886116348349_015_00000816496580927726_0,
  016_00006474836327014591_016_00005354595956047504_115_00000829875838149091_015_00001746822799706453_015_00000880567969596194_116_00003338886116348349_015_00000816496580927726_0,
  016_00005974875990738095_016_00004680587099991834_016_00005869408608359546_116_00008413466884444997_016_00009119893319611315_116_00003338886116348349_015_00000816496580927726_0,
  016_00005974875990738095_016_00004680587099991834_116_00008075637641493265_017_00028219975602413067_016_00009434106943260692_116_00003338886116348349_115_00001224744871391589_0,
  016_00005474915654461884_017_00033325693878808776_116_00011980250591452053_016_00012452395655686714_016_00009905427378734756_116_00003338886116348349_015_00000816496580927726_0,
  017_00049749553181853884_016_00002658560531825208_116_00003501662471541543_016_00003624530734861761_016_00010219641002384132_116_00003338886116348349_015_00000816496580927726_0,
  017_00049749553181853884_016_00002658560531825208_016_00037106312208029846_116_00023460963908578445_016_00010533854626033508_116_00003338886116348349_015_00000816496580927726_0,
  017_00049749553181853884_016_00002658560531825208_016_00007040792493347183_116_00009115683412237894_016_00010848068249682883_116_00003338886116348349_115_00001224744871391589_0,
  017_00044749949819088924_016_00002658560531825208_116_00005230848206523292_017_00017185144451381926_016_00011319388685156948_116_00003338886116348349_015_00000816496580927726_0,
  017_00039750346456326807_017_00019845516757699214_117_00045614859865303564_016_00006834663433343559_016_00011633602308806323_016_00029950108064592316_115_00001224744871391589_0,
  017_00039750346456326807_017_00013105428197142516_116_00002609179511550963_016_00006333080199205777_016_00012419136367929764_116_00003338886116348349_015_00000816496580927726_0,
  017_00039750346456326807_016_00000636533963658965_116_00007462055606499741_015_00002128026057651167_015_00001273334999157914_116_00003338886116348349_015_00000816496580927726_1,
  016_00003475074309356185_016_00000636533963658965_018_00017982973841959956_117_00045011176581703016_016_00013047563615228517_116_00003338886116348349_015_00000816496580927726_0,
  017_00039750346456326807_017_00013105428197142516_117_00010473343315674478_117_00022941514279640599_016_00013361777238877892_116_00003338886116348349_015_00000816496580927726_0,
  017_00039750346456326807_017_00013105428197142516_015_00000330352009838663_117_00034979511898947385_016_00013675990862527267_116_00003338886116348349_115_00001224744871391589_0,
  017_00039750346456326807_017_00019845516757699214_118_00004329100157804543_117_00038992177772049624_016_00014147311298001333_116_00003338886116348349_015_00000816496580927726_0,
  017_00044749949819088924_016_00002658560531825208_017_00042517832433766206_116_00009115683412237894_016_00014461524921650708_116_00003338886116348349_015_00000816496580927726_0,
  017_00049749553181853884_017_00033325693878808776_116_00007294715051501508_016_00007035296726998674_016_00014775738545300083_116_00003338886116348349_015_00000816496580927726_0,
  017_00049749553181853884_017_00033325693878808776_116_00008912340416484434_015_00001736791135023697_015_00001508995216894946_116_00003338886116348349_015_00000816496580927726_1,
  017_00049749553181853884_017_00040065782439365477_117_00025533993265515514_117_00021938347811365091_016_00015404165792598836_116_00003338886116348349_015_00000816496580927726_1,
  016_00005474915654461884_016_00004680587099991834_116_00009079680971482668_016_00009141946310377358_116_00016959837443286896_116_00003338886116348349_015_00000816496580927726_0,
  016_00005474915654461884_016_00004680587099991834_017_00024668173233954607_017_00007153479768626296_116_00016645623819637518_116_00003338886116348349_115_00001224744871391589_0,
  016_00005974875990738095_016_00005354595956047504_116_00007964077271494443_016_00007436563314308898_116_00016174303384163455_116_00003338886116348349_115_00001224744871391589_0,
  016_00005474915654461884_016_00004680587099991834_116_00005732869871517993_016_00005329913730930215_115_00001570298294868939_116_00003338886116348349_015_00000816496580927726_0,
  016_00005474915654461884_017_00040065782439365477_116_00006792693386506806_016_00007637196607964014_116_00015388769325040015_116_00003338886116348349_015_00000816496580927726_0,
  017_00049749553181853884_017_00040065782439365477_016_00005702068053361313_116_00006607767241548985_115_00001507455570139064_116_00003338886116348349_015_00000816496580927726_0,
  017_00049749553181853884_017_00040065782439365477_016_00008881538598327754_115_00001272708269802992_116_00014760342077741262_116_00003338886116348349_115_00001224744871391589_0,
  017_00044749949819088924_016_00002658560531825208_018_00012404955342018832_117_00008897183723782728_114_00000142890216422672_116_00003338886116348349_015_00000816496580927726_0,
  017_00039750346456326807_017_00019845516757699214_116_00008689219676486789_015_00000663403013968845_116_00013974808018617824_116_00003338886116348349_015_00000816496580927726_0,
  017_00039750346456326807_016_00002658560531825208_116_00009525922451477957_016_00006834663433343559_116_00013660594394968446_116_00003338886116348349_015_00000816496580927726_0,
  017_00039750346456326807_016_00002658560531825208_017_00017416749184031147_117_00048020675986529676_115_00001334638077131907_116_00003338886116348349_015_00000816496580927726_0,
  017_00044749949819088924_017_00033325693878808776_016_00004307563428376032_116_00006507450594721428_116_00013032167147669695_116_00003338886116348349_015_00000816496580927726_0,
  017_00044749949819088924_017_00033325693878808776_116_00005286628391522703_016_00003223264147551537_116_00012717953524020318_116_00003338886116348349_115_00001224744871391589_0,
  017_00044749949819088924_016_00002658560531825208_015_00002689853835313759_116_00021253997678372203_116_00012246633088546255_116_00003338886116348349_015_00000816496580927726_0,
  017_00044749949819088924_017_00033325693878808776_016_00009104659338325399_116_00010720749761478792_116_00011932419464896877_116_00003338886116348349_115_00001224744871391589_0,
  016_00005474915654461884_017_00040065782439365477_116_00006123331166513871_016_00012753345596169388_116_00011461099029422814_116_00003338886116348349_115_00001224744871391589_0,
  016_00005974875990738095_016_00005354595956047504_016_00009606681003320101_115_00001112201634878902_116_00010989778593948751_116_00003338886116348349_015_00000816496580927726_0,
  016_00005974875990738095_016_00004680587099991834_018_00023560992341901083_116_00007109350475686768_116_00010675564970299374_116_00003338886116348349_115_00001224744871391589_0,
  016_00006474836327014591_016_00005354595956047504_016_00004976925648368967_116_00007811567003479657_115_00001020424453482531_116_00003338886116348349_015_00000816496580927726_0,
  016_00005974875990738095_016_00005354595956047504_116_00017056247426398476_015_00002469102656864858_116_00009890030911175934_116_00003338886116348349_015_00000816496580927726_0,
  016_00005974875990738095_016_00005354595956047504_117_00043383652465327116_017_00006150313300350718_116_00009575817287526558_116_00003338886116348349_015_00000816496580927726_0,
  016_00005974875990738095_016_00004680587099991834_016_00001630114548404292_117_00016922515469987276_116_00009261603663877183_116_00003338886116348349_015_00000816496580927726_0,
  016_00006474836327014591_016_00005354595956047504_116_00005955990611515638_015_00001445872859223784_116_00008947390040227806_116_00003338886116348349_015_00000816496580927726_0,
  016_00005974875990738095_016_00004680587099991834_117_00006568730365715691_017_00011166145641728534_115_00000863317641657843_116_00003338886116348349_115_00001224744871391589_0,
  016_00006474836327014591_016_00005354595956047504_116_00004673046356529179_017_00012169312110004112_116_00008161855981104366_116_00003338886116348349_115_00001224744871391589_0,
  016_00006474836327014591_016_00005354595956047504_116_00006736913201507395_016_00005430230377757772_116_00007690535545630302_116_00003338886116348349_115_00001224744871391589_0,
  016_00006474836327014591_016_00005354595956047504_015_00001005292248331539_116_00010520116467823681_116_00007219215110156237_116_00003338886116348349_015_00000816496580927726_0,
  016_00005974875990738095_016_00005354595956047504_015_00001088962525830656_116_00008714416824927665_116_00006905001486506862_116_00003338886116348349_115_00001224744871391589_0,
  016_00005974875990738095_016_00004680587099991834_116_00006290671721512106_016_00006132446905550669_116_00006433681051032798_116_00003338886116348349_115_00001224744871391589_0,
  016_00005474915654461884_017_00040065782439365477_016_00004028662503378976_117_00048020675986529676_116_00005962360615558734_116_00003338886116348349_015_00000816496580927726_0,
  016_00005474915654461884_017_00040065782439365477_116_00003334321916543309_017_00011166145641728534_116_00005648146991909357_116_00003338886116348349_115_00001224744871391589_0,
  017_00049749553181853884_017_00033325693878808776_116_00012370711886447932_016_00010947645953273368_116_00005176826556435293_116_00003338886116348349_015_00000816496580927726_0,
  017_00049749553181853884_017_00033325693878808776_116_00016219544651407307_016_00021480893870166784_117_00048626129327859174_116_00003338886116348349_015_00000816496580927726_0,
  017_00049749553181853884_017_00033325693878808776_016_00021934101888189987_116_00018344814920373074_117_00045483993091365416_116_00003338886116348349_015_00000816496580927726_0,
  016_00005474915654461884_017_00033325693878808776_017_00004587306634166558_117_00042001677176876356_117_00042341856854871657_116_00003338886116348349_115_00001224744871391589_0,
  017_00049749553181853884_016_00002658560531825208_017_00041960030583772095_116_00008413466884444997_117_00037628652500131016_116_00003338886116348349_015_00000816496580927726_0,
  017_00049749553181853884_016_00002658560531825208_116_00001493575811562738_015_00000492864714361999_117_00034486516263637257_016_00029950108064592316_115_00001224744871391589_0,
  016_00005474915654461884_017_00033325693878808776_117_00005453126665727467_117_00012909849596884967_117_00026631175672402857_116_00003338886116348349_015_00000816496580927726_0,
  016_00005474915654461884_017_00040065782439365477_016_00013567074138278299_116_00015134682221891271_117_00023489039435909095_016_00029950108064592316_115_00001224744871391589_0,
  017_00049749553181853884_017_00033325693878808776_116_00006123331166513871_117_00005887684318956068_117_00015633698844674693_116_00003338886116348349_015_00000816496580927726_0,
  016_00005474915654461884_017_00033325693878808776_116_00012816953366443222_015_00002077867734237389_117_00012491562608180934_116_00003338886116348349_115_00001224744871391589_0,
  016_00005474915654461884_017_00033325693878808776_116_00006179111351513282_016_00004126113968999543_117_00007778358253440293_116_00003338886116348349_015_00000816496580927726_0,
  016_00005974875990738095_017_00040065782439365477_116_00008577659306487967_016_00009242262957204916_118_00046362220169465326_116_00003338886116348349_015_00000816496580927726_0]

/-- lr/data.csv 6302-6401 -/
def dataCsv63 : List ℕ := [
  016_00005974875990738095_016_00004680587099991834_117_00012146748865656816_117_00005887684318956068_118_00014940857804527726_116_00003338886116348349_015_00000816496580927726_0,
  016_00005974875990738095_017_00040065782439365477_017_00020763560283995822_117_00003881351382404913_018_00016480504560409875_116_00003338886116348349_115_00001224744871391589_0,
  016_00005974875990738095_017_00040065782439365477_116_00005677089686518582_016_00011248595893756042_017_00006361254810781627_116_00003338886116348349_015_00000816496580927726_0,
  016_00005974875990738095_017_00040065782439365477_117_00045614859865303564_016_00010546379365963146_017_00009503391047275388_016_00029950108064592316_115_00001224744871391589_0,
  016_00005474915654461884_017_00033325693878808776_117_00003779721115745129_117_00024947847216191754_016_00001735873163850979_116_00003338886116348349_015_00000816496580927726_0,
  016_00005474915654461884_017_00033325693878808776_017_00035824210233836856_116_00007410300416169433_016_00002050086787500355_116_00003338886116348349_115_00001224744871391589_0,
  017_00049749553181853884_016_00002658560531825208_017_00013512136234072358_116_00005604600773273423_016_00002521407222974419_116_00003338886116348349_015_00000816496580927726_0,
  017_00049749553181853884_017_00019845516757699214_017_00043633436133754433_116_00005504284126445864_016_00002835620846623795_116_00003338886116348349_015_00000816496580927726_0,
  017_00039750346456326807_016_00000636533963658965_016_00008212176378334819_116_00013128349285340146_016_00003149834470273171_116_00003338886116348349_115_00001224744871391589_0,
  017_00044749949819088924_017_00013105428197142516_114_00000087449998614862_016_00010446062719135587_017_00036211549057472353_116_00003338886116348349_015_00000816496580927726_0,
  017_00044749949819088924_016_00000636533963658965_016_00030747371118096964_115_00002225716414664777_016_00003935368529396611_116_00003338886116348349_015_00000816496580927726_0,
  017_00044749949819088924_017_00019845516757699214_116_00005175068021523881_017_00045273805563097663_016_00004249582153045987_116_00003338886116348349_015_00000816496580927726_0,
  017_00044749949819088924_017_00013105428197142516_118_00032219192657510165_116_00001892884840653836_016_00004563795776695363_116_00003338886116348349_115_00001224744871391589_0,
  017_00044749949819088924_017_00019845516757699214_116_00005509749131520348_016_00007637196607964014_016_00005035116212169427_116_00003338886116348349_015_00000816496580927726_0,
  017_00049749553181853884_016_00002658560531825208_016_00014180656173271824_116_00015034365575063715_016_00005349329835818804_116_00003338886116348349_115_00001224744871391589_0,
  017_00049749553181853884_016_00002658560531825208_117_00012146748865656816_016_00006132446905550669_016_00005820650271292868_116_00003338886116348349_115_00001224744871391589_0,
  017_00044749949819088924_016_00002658560531825208_018_00029139010841842207_115_00000399953442403252_016_00006291970706766932_116_00003338886116348349_015_00000816496580927726_0,
  017_00044749949819088924_017_00019845516757699214_116_00012147591146450287_016_00008840996369894685_016_00006606184330416307_116_00003338886116348349_015_00000816496580927726_0,
  017_00044749949819088924_017_00019845516757699214_116_00006848473571506217_016_00010947645953273368_016_00006920397954065683_116_00003338886116348349_115_00001224744871391589_0,
  017_00039750346456326807_017_00013105428197142516_117_00013820154415639155_019_00013131449069732513_016_00007391718389539748_116_00003338886116348349_015_00000816496580927726_0,
  017_00039750346456326807_017_00013105428197142516_116_00013095854291440279_015_00001255271230251427_016_00007705932013189124_116_00003338886116348349_115_00001224744871391589_0,
  016_00003475074309356185_017_00013105428197142516_115_00001409989762142968_015_00002499197650913126_016_00008177252448663187_116_00003338886116348349_015_00000816496580927726_0,
  016_00003475074309356185_016_00000636533963658965_117_00031112011765456643_018_00021376474272484798_016_00008491466072312563_116_00003338886116348349_115_00001224744871391589_0,
  016_00003475074309356185_016_00000636533963658965_116_00010474185596467949_016_00006934980080171117_016_00008962786507786628_116_00003338886116348349_015_00000816496580927726_0,
  016_00003475074309356185_016_00000636533963658965_116_00009581702636477369_015_00001265302894934183_016_00009277000131436004_116_00003338886116348349_115_00001224744871391589_0,
  016_00003475074309356185_016_00000636533963658965_016_00010164482853314214_116_00007711250356652106_016_00009748320566910068_116_00003338886116348349_015_00000816496580927726_0,
  016_00002975113973079973_118_00003747489239670474_116_00004673046356529179_017_00004143980363799563_016_00010062534190559445_116_00003338886116348349_015_00000816496580927726_0,
  016_00002975113973079973_118_00003747489239670474_116_00006346451906511517_016_00009543212897687582_015_00001037674781420882_116_00003338886116348349_015_00000816496580927726_0,
  016_00003475074309356185_118_00003747489239670474_016_00007431253788343062_116_00010319483174168569_016_00010690961437858195_116_00003338886116348349_015_00000816496580927726_0,
  016_00003475074309356185_118_00003747489239670474_016_00005702068053361313_116_00005403967479618307_016_00011005175061507573_116_00003338886116348349_115_00001224744871391589_0,
  016_00002475153636803477_118_00003747489239670474_016_00002299476768397227_117_00029963679557569567_016_00011476495496981636_116_00003338886116348349_115_00001224744871391589_0,
  016_00002475153636803477_118_00003747489239670474_116_00002441838956552729_016_00007436563314308898_014_00000119478159324557_016_00029950108064592316_115_00001224744871391589_0,
  016_00002475153636803477_117_00007114837484523745_016_00025392473358153484_115_00002025083121009664_015_00001273334999157914_116_00003338886116348349_115_00001224744871391589_0,
  017_00019751933005269812_117_00007114837484523745_115_00000690425375650563_116_00008212833590789884_016_00013204670427053204_116_00003338886116348349_115_00001224744871391589_0,
  017_00019751933005269812_116_00001385492604507661_016_00010387603593311858_116_00009617266646375675_016_00013675990862527267_116_00003338886116348349_115_00001224744871391589_0,
  017_00019751933005269812_116_00001385492604507661_115_00000606755098151446_016_00003423897441206646_016_00014147311298001333_116_00003338886116348349_115_00001224744871391589_0,
  017_00019751933005269812_116_00001385492604507661_116_00008019857456493854_016_00008138779842101795_016_00014618631733475396_116_00003338886116348349_015_00000816496580927726_0,
  017_00019751933005269812_116_00001385492604507661_116_00005788650056517404_016_00003624530734861761_016_00014932845357124773_116_00003338886116348349_115_00001224744871391589_0,
  017_00019751933005269812_117_00007114837484523745_016_00007933275453337764_116_00011422966289271685_016_00015404165792598836_116_00003338886116348349_015_00000816496580927726_0,
  016_00002475153636803477_118_00003747489239670474_116_00004896167096526824_016_00008640363076239577_016_00015718379416248212_116_00003338886116348349_015_00000816496580927726_0,
  016_00002475153636803477_117_00007114837484523745_116_00007908297086495032_016_00005931813611895553_015_00001603259303989759_016_00029950108064592316_115_00001224744871391589_1,
  017_00019751933005269812_116_00001385492604507661_116_00006569572646509162_015_00000723593002065379_116_00016959837443286896_116_00003338886116348349_115_00001224744871391589_0,
  017_00014752329642507697_116_00001385492604507661_116_00005286628391522703_017_00020194643856208588_115_00001648851700781283_116_00003338886116348349_115_00001224744871391589_0,
  017_00009752726279742736_116_00001385492604507661_016_00016077182463251805_115_00001704069851161484_116_00016017196572338768_116_00003338886116348349_015_00000816496580927726_0,
  017_00009752726279742736_116_00001385492604507661_115_00000919124134148149_016_00007737513254791571_115_00001570298294868939_016_00029950108064592316_115_00001224744871391589_0,
  017_00009752726279742736_116_00001385492604507661_016_00006204089718356014_116_00010419799820996123_115_00001491744888956595_116_00003338886116348349_015_00000816496580927726_0,
  017_00009752726279742736_117_00020595014605633308_116_00014713479656423203_015_00002077867734237389_116_00014603235265916574_116_00003338886116348349_015_00000816496580927726_0,
  017_00009752726279742736_117_00020595014605633308_116_00006569572646509162_016_00004627697203137324_114_00000142890216422672_116_00003338886116348349_015_00000816496580927726_0,
  017_00009752726279742736_116_00001385492604507661_017_00010165325134107683_116_00006206500654238761_116_00013974808018617824_116_00003338886116348349_015_00000816496580927726_0,
  016_00000475312291698062_116_00001385492604507661_117_00018282569215592054_117_00048020675986529676_116_00013660594394968446_116_00003338886116348349_015_00000816496580927726_0,
  016_00000475312291698062_117_00020595014605633308_116_00009860603561474425_016_00009141946310377358_115_00001334638077131907_116_00003338886116348349_015_00000816496580927726_0,
  118_00002464804457843392_117_00020595014605633308_018_00017982973841959956_016_00007135613373826232_116_00013032167147669695_116_00003338886116348349_015_00000816496580927726_0,
  118_00002464804457843392_117_00027335103166186175_116_00002386058771553318_116_00001190668312860946_116_00012717953524020318_116_00003338886116348349_015_00000816496580927726_0,
  118_00002464804457843392_117_00027335103166186175_116_00002664959696550374_017_00020194643856208588_116_00012403739900370943_116_00003338886116348349_115_00001224744871391589_0,
  016_00000475312291698062_117_00027335103166186175_017_00014627739934060582_116_00005203334185963199_116_00011932419464896877_116_00003338886116348349_015_00000816496580927726_0,
  016_00000475312291698062_117_00020595014605633308_117_00032227615465444864_117_00020935181343089515_116_00011618205841247502_116_00003338886116348349_015_00000816496580927726_0,
  016_00000475312291698062_117_00020595014605633308_116_00006625352831508573_016_00008439729782584461_116_00011303992217598127_116_00003338886116348349_115_00001224744871391589_0,
  017_00009752726279742736_116_00001385492604507661_115_00000785251690149562_016_00014859995179548064_116_00010832671782124061_116_00003338886116348349_015_00000816496580927726_0,
  017_00009752726279742736_116_00001385492604507661_116_00004059464321535655_016_00005731180318240445_116_00010518458158474686_116_00003338886116348349_115_00001224744871391589_0,
  016_00000475312291698062_116_00001385492604507661_115_00000606755098151446_015_00001676601146927164_116_00010047137723000623_116_00003338886116348349_015_00000816496580927726_0,
  016_00000475312291698062_117_00020595014605633308_116_00005453968946520936_018_00011344809589729025_116_00009732924099351247_116_00003338886116348349_015_00000816496580927726_0,
  016_00000475312291698062_117_00020595014605633308_116_00010641526151466183_015_00001736791135023697_115_00000941871047570187_116_00003338886116348349_115_00001224744871391589_0,
  118_00002464804457843392_117_00027335103166186175_016_00011112745998304205_116_00011322649642444131_116_00008947390040227806_116_00003338886116348349_015_00000816496580927726_0,
  118_00002464804457843392_117_00027335103166186175_017_00044191237983748544_117_00037989011303774045_115_00000863317641657843_116_00003338886116348349_115_00001224744871391589_0,
  117_00005246083808549298_117_00027335103166186175_116_00002776520066549197_017_00017185144451381926_116_00008161855981104366_116_00003338886116348349_115_00001224744871391589_0,
  117_00005246083808549298_116_00003407519172674287_116_00007071594311503863_015_00001796981123120231_116_00007690535545630302_116_00003338886116348349_115_00001224744871391589_0,
  117_00005246083808549298_116_00003407519172674287_016_00029352866493111684_116_00021956214206165097_116_00007219215110156237_116_00003338886116348349_115_00001224744871391589_0,
  118_00002464804457843392_117_00027335103166186175_017_00017974551034025257_116_00006908717182031652_116_00006747894674682174_116_00003338886116348349_015_00000816496580927726_0,
  118_00002464804457843392_117_00027335103166186175_116_00006458012276510339_016_00008740679723067134_116_00006433681051032798_116_00003338886116348349_115_00001224744871391589_0,
  118_00002464804457843392_116_00003407519172674287_015_00001351129395327889_116_00015134682221891271_116_00005962360615558734_016_00029950108064592316_115_00001224744871391589_0,
  016_00000475312291698062_117_00027335103166186175_116_00012147591146450287_016_00006934980080171117_116_00005176826556435293_116_00003338886116348349_015_00000816496580927726_0,
  016_00000475312291698062_117_00027335103166186175_018_00040295047841724455_117_00032973178962396227_117_00048626129327859174_116_00003338886116348349_015_00000816496580927726_0,
  118_00002464804457843392_116_00003407519172674287_015_00001897775208322119_115_00001764259839258018_117_00045483993091365416_116_00003338886116348349_115_00001224744871391589_0,
  118_00002464804457843392_116_00003407519172674287_015_00001094540544330597_115_00001112201634878902_117_00040770788736624775_016_00029950108064592316_115_00001224744871391589_0,
  118_00002464804457843392_116_00003407519172674287_117_00018282569215592054_116_00001190668312860946_117_00032915448145390375_116_00003338886116348349_015_00000816496580927726_0,
  118_00002464804457843392_117_00027335103166186175_016_00005032705833368378_116_00007711250356652106_117_00029773311908896616_016_00029950108064592316_115_00001224744871391589_0,
  118_00002464804457843392_117_00027335103166186175_015_00000865841785833011_116_00011322649642444131_117_00021917971317662216_116_00003338886116348349_015_00000816496580927726_0,
  016_00000475312291698062_117_00027335103166186175_018_00012404955342018832_117_00029963679557569567_117_00018775835081168454_116_00003338886116348349_015_00000816496580927726_0,
  118_00002464804457843392_117_00027335103166186175_117_00013820154415639155_016_00004627697203137324_117_00015633698844674693_116_00003338886116348349_015_00000816496580927726_0,
  016_00000475312291698062_117_00020595014605633308_117_00029996408065468416_016_00005931813611895553_117_00012491562608180934_116_00003338886116348349_015_00000816496580927726_0,
  017_00009752726279742736_116_00001385492604507661_115_00000606755098151446_015_00001506062847320318_117_00009349426371687174_116_00003338886116348349_015_00000816496580927726_0,
  017_00009752726279742736_117_00020595014605633308_016_00012953492103284776_116_00012927715991685031_118_00062072901351934134_116_00003338886116348349_015_00000816496580927726_0,
  017_00009752726279742736_116_00001385492604507661_117_00032227615465444864_016_00001919147738793301_117_00003065153898699653_116_00003338886116348349_015_00000816496580927726_0,
  017_00009752726279742736_117_00020595014605633308_117_00031112011765456643_015_00000382516402851687_019_00007698233779410749_016_00029950108064592316_115_00001224744871391589_0,
  016_00000475312291698062_117_00027335103166186175_116_00004226804876533889_016_00005129280437275106_017_00007932322929028508_016_00029950108064592316_115_00001224744871391589_0,
  016_00000475312291698062_117_00020595014605633308_116_00007183154681502685_016_00008339413135756903_016_00001578766352026291_116_00003338886116348349_015_00000816496580927726_0,
  017_00009752726279742736_117_00020595014605633308_016_00006538770828352481_115_00000570491742010098_017_00018929799756756668_116_00003338886116348349_015_00000816496580927726_0,
  017_00009752726279742736_116_00001385492604507661_116_00002888080436548019_117_00007894017255507152_016_00002207193599325043_116_00003338886116348349_115_00001224744871391589_0,
  017_00014752329642507697_117_00007114837484523745_117_00016609163665609716_015_00000663403013968845_016_00002678514034799107_016_00029950108064592316_115_00001224744871391589_0,
  017_00014752329642507697_117_00007114837484523745_016_00007710154713340118_115_00000991821658685834_016_00003464048093922547_016_00029950108064592316_115_00001224744871391589_0,
  017_00014752329642507697_116_00001385492604507661_117_00049519472815262355_015_00001506062847320318_016_00004249582153045987_116_00003338886116348349_015_00000816496580927726_0,
  017_00009752726279742736_117_00020595014605633308_116_00007015814126504452_016_00003022630853896422_016_00004563795776695363_116_00003338886116348349_115_00001224744871391589_0,
  016_00000475312291698062_117_00020595014605633308_016_00007877495268338351_116_00006206500654238761_016_00005035116212169427_116_00003338886116348349_015_00000816496580927726_0,
  017_00009752726279742736_117_00020595014605633308_016_00007765934898339529_116_00009516949999548118_016_00005349329835818804_116_00003338886116348349_015_00000816496580927726_0,
  017_00009752726279742736_117_00020595014605633308_116_00007294715051501508_016_00004025797322171985_016_00005663543459468179_116_00003338886116348349_115_00001224744871391589_0,
  016_00000475312291698062_117_00027335103166186175_116_00009079680971482668_016_00012151445715204048_016_00006134863894942243_116_00003338886116348349_115_00001224744871391589_0,
  118_00002464804457843392_117_00027335103166186175_117_00007126532215709803_016_00006433396846033335_016_00006606184330416307_116_00003338886116348349_015_00000816496580927726_0,
  118_00002464804457843392_117_00027335103166186175_016_00002689938063393106_116_00007410300416169433_016_00006920397954065683_116_00003338886116348349_115_00001224744871391589_0,
  016_00000475312291698062_117_00020595014605633308_116_00010474185596467949_016_00018270761171684984_016_00007391718389539748_116_00003338886116348349_015_00000816496580927726_0,
  016_00000475312291698062_117_00027335103166186175_117_00021071578465562615_116_00001993201487481394_016_00007705932013189124_116_00003338886116348349_115_00001224744871391589_0]

/-- lr/data.csv 6402-6501 -/
def dataCsv64 : List ℕ := [
  016_00000475312291698062_117_00020595014605633308_017_00034708606533848635_117_00042001677176876356_016_00008177252448663187_116_00003338886116348349_015_00000816496580927726_0,
  118_00002464804457843392_117_00027335103166186175_017_00019090154734013484_118_00028781849141293357_016_00008491466072312563_116_00003338886116348349_115_00001224744871391589_0,
  016_00000475312291698062_117_00027335103166186175_016_00002522597508394872_117_00032973178962396227_016_00008962786507786628_116_00003338886116348349_115_00001224744871391589_0,
  016_00000475312291698062_117_00027335103166186175_016_00006148309533356603_115_00000640713394789387_016_00009434106943260692_116_00003338886116348349_015_00000816496580927726_0,
  017_00009752726279742736_117_00020595014605633308_116_00019845256676369039_016_00021480893870166784_016_00009748320566910068_116_00003338886116348349_115_00001224744871391589_0,
  016_00000475312291698062_117_00020595014605633308_015_00003414996240306105_115_00002255811408713044_016_00010219641002384132_116_00003338886116348349_015_00000816496580927726_0,
  017_00009752726279742736_116_00001385492604507661_117_00007126532215709803_016_00005630863671412888_016_00010533854626033508_116_00003338886116348349_015_00000816496580927726_0,
  017_00014752329642507697_117_00007114837484523745_016_00004028662503378976_116_00011021699701961463_016_00010848068249682883_116_00003338886116348349_115_00001224744871391589_0,
  017_00014752329642507697_117_00007114837484523745_017_00034708606533848635_116_00008313150237617443_016_00011319388685156948_116_00003338886116348349_015_00000816496580927726_0,
  017_00014752329642507697_118_00003747489239670474_017_00011838730684090021_017_00008156646236901802_016_00011633602308806323_116_00003338886116348349_015_00000816496580927726_0,
  017_00019751933005269812_016_00000636533963658965_018_00029139010841842207_016_00001919147738793301_014_00000119478159324557_116_00003338886116348349_015_00000816496580927726_0,
  017_00019751933005269812_118_00003747489239670474_017_00011838730684090021_017_00023204143261035248_016_00012262029556105076_116_00003338886116348349_115_00001224744871391589_0,
  017_00019751933005269812_118_00003747489239670474_116_00006458012276510339_017_00042264306158271003_015_00001273334999157914_116_00003338886116348349_015_00000816496580927726_0,
  017_00019751933005269812_016_00000636533963658965_017_00041960030583772095_116_00006507450594721428_016_00013047563615228517_116_00003338886116348349_015_00000816496580927726_0,
  017_00019751933005269812_016_00000636533963658965_117_00045614859865303564_117_00049023842454805255_016_00013361777238877892_116_00003338886116348349_115_00001224744871391589_0,
  017_00019751933005269812_016_00000636533963658965_116_00001995597476557439_016_00002220097679275974_016_00013833097674351955_116_00003338886116348349_015_00000816496580927726_0,
  017_00019751933005269812_016_00000636533963658965_117_00030554209915462527_116_00001993201487481394_016_00014147311298001333_016_00029950108064592316_115_00001224744871391589_0,
  017_00014752329642507697_117_00007114837484523745_019_00068269368420777075_118_00008718519775782523_016_00014932845357124773_116_00003338886116348349_015_00000816496580927726_0,
  017_00014752329642507697_117_00007114837484523745_116_00007462055606499741_016_00012151445715204048_016_00015247058980774149_016_00029950108064592316_115_00001224744871391589_0,
  017_00014752329642507697_117_00007114837484523745_116_00008075637641493265_016_00006734346786516008_015_00001603259303989759_016_00029950108064592316_115_00001224744871391589_1,
  017_00014752329642507697_117_00007114837484523745_117_00011588947015662704_117_00035982678367222964_116_00016959837443286896_116_00003338886116348349_015_00000816496580927726_0,
  017_00014752329642507697_117_00007114837484523745_117_00006568730365715691_017_00014175645046555194_116_00016645623819637518_116_00003338886116348349_015_00000816496580927726_0,
  017_00014752329642507697_117_00007114837484523745_116_00009023900786483257_016_00015361578413685846_116_00016331410195988143_116_00003338886116348349_015_00000816496580927726_0,
  017_00014752329642507697_118_00003747489239670474_118_00009907118657745668_117_00024947847216191754_116_00016017196572338768_116_00003338886116348349_115_00001224744871391589_0,
  017_00014752329642507697_118_00003747489239670474_116_00007238934866502097_016_00003223264147551537_116_00015545876136864702_116_00003338886116348349_115_00001224744871391589_0,
  017_00014752329642507697_117_00007114837484523745_116_00008131417826492676_014_00000161641115883063_115_00001507455570139064_116_00003338886116348349_015_00000816496580927726_0,
  017_00009752726279742736_117_00020595014605633308_116_00005063507651525058_117_00031970012494120725_116_00014760342077741262_116_00003338886116348349_015_00000816496580927726_0,
  017_00009752726279742736_116_00001385492604507661_116_00006736913201507395_016_00009342579604032467_116_00014446128454091887_116_00003338886116348349_015_00000816496580927726_0,
  017_00009752726279742736_116_00001385492604507661_015_00001139164692330126_115_00001593721539651172_116_00014131914830442511_116_00003338886116348349_115_00001224744871391589_0,
  017_00009752726279742736_116_00001385492604507661_116_00008075637641493265_016_00007436563314308898_116_00013660594394968446_116_00003338886116348349_115_00001224744871391589_0,
  017_00014752329642507697_116_00001385492604507661_117_00008799937765692141_117_00007894017255507152_116_00013189273959494383_116_00003338886116348349_015_00000816496580927726_0,
  017_00009752726279742736_116_00001385492604507661_116_00010362625226469127_016_00019474560933615657_116_00012875060335845006_116_00003338886116348349_015_00000816496580927726_0,
  017_00014752329642507697_117_00007114837484523745_116_00005119287836524469_016_00006533713492860893_115_00001256084671219563_116_00003338886116348349_115_00001224744871391589_0,
  017_00014752329642507697_117_00007114837484523745_017_00017416749184031147_116_00006005867360583647_116_00012089526276721567_116_00003338886116348349_015_00000816496580927726_0,
  017_00014752329642507697_117_00007114837484523745_117_00024976191415521404_117_00014916182533436123_115_00001177531265307219_116_00003338886116348349_115_00001224744871391589_0,
  017_00014752329642507697_117_00007114837484523745_016_00004586464353373088_116_00005905550713756088_116_00011303992217598127_116_00003338886116348349_015_00000816496580927726_0,
  017_00019751933005269812_118_00003747489239670474_016_00012841931733285954_116_00013930882459960594_116_00010989778593948751_116_00003338886116348349_015_00000816496580927726_0,
  017_00019751933005269812_118_00003747489239670474_116_00014323018361427324_016_00026195776271061924_116_00010675564970299374_116_00003338886116348349_015_00000816496580927726_0,
  017_00019751933005269812_118_00003747489239670474_017_00023552569533966383_116_00009717583293203229_116_00010361351346649998_116_00003338886116348349_015_00000816496580927726_0,
  016_00002975113973079973_016_00000636533963658965_016_00006538770828352481_116_00007309983769341876_116_00010047137723000623_116_00003338886116348349_015_00000816496580927726_0,
  016_00002975113973079973_017_00013105428197142516_016_00006092529348357192_116_00008313150237617443_116_00009732924099351247_116_00003338886116348349_015_00000816496580927726_0,
  016_00003475074309356185_017_00013105428197142516_016_00005590507683362491_116_00008614100178100111_115_00000941871047570187_116_00003338886116348349_015_00000816496580927726_0,
  016_00003475074309356185_017_00013105428197142516_116_00010641526151466183_016_00014859995179548064_116_00009104496852052494_116_00003338886116348349_015_00000816496580927726_0,
  017_00039750346456326807_017_00019845516757699214_118_00009907118657745668_116_00006708083888376544_116_00008790283228403118_116_00003338886116348349_015_00000816496580927726_0,
  017_00039750346456326807_017_00019845516757699214_115_00001499238058142026_015_00002107962728285656_116_00008476069604753742_116_00003338886116348349_115_00001224744871391589_0,
  016_00003475074309356185_017_00019845516757699214_016_00006873451938348949_116_00005604600773273423_116_00008004749169279678_116_00003338886116348349_015_00000816496580927726_0,
  016_00003475074309356185_017_00019845516757699214_117_00037805633965385993_018_00021376474272484798_116_00007690535545630302_116_00003338886116348349_115_00001224744871391589_0,
  016_00002975113973079973_016_00000636533963658965_116_00011255108186459706_016_00005831496965067996_116_00007219215110156237_116_00003338886116348349_015_00000816496580927726_0,
  016_00003475074309356185_017_00013105428197142516_016_00018866191713222369_116_00015234998868718825_116_00006905001486506862_016_00029950108064592316_115_00001224744871391589_0,
  016_00002975113973079973_017_00013105428197142516_117_00011031145165668592_016_00004627697203137324_116_00006119467427383422_116_00003338886116348349_015_00000816496580927726_0,
  016_00002975113973079973_017_00013105428197142516_116_00008968120601483845_016_00007336246667481341_116_00005805253803734046_116_00003338886116348349_015_00000816496580927726_0,
  016_00003475074309356185_017_00013105428197142516_016_00008769978228328932_116_00012526449404374806_115_00000549104018008467_116_00003338886116348349_015_00000816496580927726_0,
  016_00003475074309356185_016_00000636533963658965_116_00009079680971482668_016_00010847329306445812_116_00005176826556435293_116_00003338886116348349_015_00000816496580927726_0,
  016_00003475074309356185_017_00013105428197142516_015_00001496157876326358_116_00015836898749684165_117_00048626129327859174_116_00003338886116348349_015_00000816496580927726_0,
  016_00003475074309356185_016_00000636533963658965_015_00000330352009838663_116_00007209667122514325_117_00045483993091365416_116_00003338886116348349_015_00000816496580927726_0,
  016_00003475074309356185_016_00000636533963658965_017_00014627739934060582_018_00021376474272484798_117_00042341856854871657_116_00003338886116348349_015_00000816496580927726_0,
  016_00003475074309356185_017_00013105428197142516_116_00008466098936489144_016_00010646696012790704_115_00000391997206183779_116_00003338886116348349_015_00000816496580927726_0,
  016_00003475074309356185_118_00003747489239670474_116_00008019857456493854_016_00008038463195274238_117_00036057584381884134_116_00003338886116348349_015_00000816496580927726_0,
  016_00002975113973079973_118_00003747489239670474_114_00000132074146614391_015_00002298564357258013_117_00032915448145390375_116_00003338886116348349_115_00001224744871391589_0,
  016_00002975113973079973_118_00003747489239670474_116_00007908297086495032_016_00015261261766858294_117_00028202243790649734_116_00003338886116348349_115_00001224744871391589_0,
  016_00002975113973079973_118_00003747489239670474_116_00012593832626445576_016_00012953978889824496_117_00023489039435909095_116_00003338886116348349_015_00000816496580927726_0,
  016_00002975113973079973_118_00003747489239670474_117_00018840371065586167_117_00040998510708600777_117_00020346903199415334_116_00003338886116348349_015_00000816496580927726_0,
  016_00002975113973079973_118_00003747489239670474_117_00031112011765456643_016_00004025797322171985_117_00017204766962921575_016_00029950108064592316_115_00001224744871391589_0,
  016_00002475153636803477_118_00003747489239670474_115_00001008372430147207_016_00020477727401891217_117_00009349426371687174_016_00029950108064592316_115_00001224744871391589_0,
  016_00002475153636803477_117_00007114837484523745_015_00001094540544330597_116_00013028032638512588_118_00014940857804527726_116_00003338886116348349_115_00001224744871391589_0,
  016_00002475153636803477_116_00001385492604507661_116_00006848473571506217_016_00008540046429412019_017_00003219118574287868_116_00003338886116348349_115_00001224744871391589_0,
  017_00019751933005269812_117_00020595014605633308_016_00011224306368303028_116_00008915050118582778_017_00007932322929028508_116_00003338886116348349_015_00000816496580927726_0,
  017_00019751933005269812_117_00020595014605633308_016_00008546857488331286_116_00012626766051202365_017_00011074459165522269_116_00003338886116348349_015_00000816496580927726_0,
  016_00002475153636803477_116_00001385492604507661_116_00001772476736559794_015_00000252104761975864_016_00001421659540201603_116_00003338886116348349_015_00000816496580927726_0,
  017_00019751933005269812_117_00027335103166186175_117_00009915541465680366_116_00005002700892308083_016_00001735873163850979_116_00003338886116348349_115_00001224744871391589_0,
  017_00019751933005269812_117_00027335103166186175_116_00008912340416484434_016_00014559045239065398_016_00002207193599325043_116_00003338886116348349_015_00000816496580927726_0,
  017_00019751933005269812_117_00027335103166186175_117_00008799937765692141_117_00014916182533436123_016_00002521407222974419_116_00003338886116348349_015_00000816496580927726_0,
  017_00019751933005269812_117_00027335103166186175_017_00017974551034025257_115_00000640713394789387_016_00002835620846623795_016_00029950108064592316_115_00001224744871391589_0,
  017_00019751933005269812_116_00003407519172674287_017_00004587306634166558_015_00001074701265961826_017_00036211549057472353_016_00029950108064592316_115_00001224744871391589_0,
  016_00002475153636803477_117_00020595014605633308_116_00010697306336465593_016_00014358411945410283_017_00044066889648706753_116_00003338886116348349_115_00001224744871391589_0,
  016_00002475153636803477_117_00020595014605633308_017_00011838730684090021_116_00009817899940030786_017_00048780094003447394_116_00003338886116348349_015_00000816496580927726_0,
  016_00002475153636803477_117_00020595014605633308_116_00008633439491487378_016_00008640363076239577_016_00005192223023994115_116_00003338886116348349_015_00000816496580927726_0,
  016_00002475153636803477_117_00020595014605633308_016_00016858105053243564_116_00015435632162373938_016_00005506436647643491_116_00003338886116348349_015_00000816496580927726_0,
  016_00002475153636803477_116_00001385492604507661_016_00006929232123348361_116_00010921383055133904_016_00005820650271292868_116_00003338886116348349_015_00000816496580927726_1,
  016_00002975113973079973_116_00001385492604507661_116_00006736913201507395_016_00002721680913413756_016_00006134863894942243_116_00003338886116348349_015_00000816496580927726_0,
  016_00003475074309356185_117_00007114837484523745_015_00001317661284328242_116_00013429299225822813_016_00006449077518591619_116_00003338886116348349_015_00000816496580927726_0,
  016_00003475074309356185_116_00001385492604507661_115_00000740627542150033_016_00008439729782584461_016_00006763291142240996_116_00003338886116348349_015_00000816496580927726_0,
  016_00002975113973079973_117_00007114837484523745_116_00003278541731543898_016_00003724847381689319_016_00007077504765890371_116_00003338886116348349_015_00000816496580927726_0,
  016_00003475074309356185_117_00007114837484523745_116_00007071594311503863_016_00005329913730930215_016_00007391718389539748_116_00003338886116348349_015_00000816496580927726_0,
  016_00002975113973079973_116_00001385492604507661_015_00002087427837320117_116_00017542281745752621_016_00007705932013189124_016_00029950108064592316_115_00001224744871391589_0,
  016_00002975113973079973_116_00001385492604507661_016_00005032705833368378_117_00023944680747916175_016_00008491466072312563_116_00003338886116348349_015_00000816496580927726_0,
  016_00002475153636803477_116_00001385492604507661_016_00022324563183185866_116_00018645764860855742_015_00000880567969596194_116_00003338886116348349_015_00000816496580927726_0,
  016_00002975113973079973_116_00001385492604507661_018_00012404955342018832_117_00037989011303774045_016_00009119893319611315_016_00029950108064592316_115_00001224744871391589_0,
  016_00003475074309356185_116_00001385492604507661_116_00011645569481455584_015_00001445872859223784_016_00009905427378734756_116_00003338886116348349_015_00000816496580927726_0,
  016_00003475074309356185_116_00001385492604507661_116_00002720739881549785_116_00001190668312860946_016_00010219641002384132_116_00003338886116348349_115_00001224744871391589_0,
  016_00003475074309356185_117_00007114837484523745_116_00008689219676486789_017_00045273805563097663_016_00010690961437858195_116_00003338886116348349_015_00000816496580927726_0,
  017_00039750346456326807_118_00003747489239670474_116_00003947903951536833_016_00012753345596169388_016_00011005175061507573_116_00003338886116348349_015_00000816496580927726_0,
  017_00039750346456326807_117_00007114837484523745_116_00005286628391522703_016_00006032130258723112_016_00011319388685156948_116_00003338886116348349_115_00001224744871391589_0,
  016_00003475074309356185_116_00001385492604507661_116_00009804823376475014_015_00001315461218347961_015_00001179070912063101_116_00003338886116348349_015_00000816496580927726_0,
  016_00002975113973079973_117_00020595014605633308_017_00043633436133754433_116_00006808400535204094_016_00012104922744280389_116_00003338886116348349_015_00000816496580927726_0,
  016_00002975113973079973_116_00001385492604507661_015_00000865841785833011_116_00008915050118582778_016_00012419136367929764_116_00003338886116348349_115_00001224744871391589_0,
  016_00003475074309356185_117_00007114837484523745_015_00001540782024325887_116_00013028032638512588_016_00012890456803403827_116_00003338886116348349_015_00000816496580927726_0,
  017_00039750346456326807_117_00007114837484523745_116_00012649612811444988_015_00002539324309644148_016_00013204670427053204_116_00003338886116348349_015_00000816496580927726_1,
  017_00039750346456326807_117_00007114837484523745_016_00028014142053125815_116_00020852731091061982_015_00001351888405070258_016_00029950108064592316_115_00001224744871391589_0,
  017_00044749949819088924_118_00003747489239670474_016_00007375473603343651_114_00000132286659321677_015_00001430441810982602_116_00003338886116348349_015_00000816496580927726_0]

/-- lr/data.csv 6502-6601 -/
def dataCsv65 : List ℕ := [
  017_00044749949819088924_118_00003747489239670474_116_00006848473571506217_015_00000663403013968845_016_00014618631733475396_116_00003338886116348349_115_00001224744871391589_0,
  017_00044749949819088924_118_00003747489239670474_016_00003415080468385452_115_00000399953442403252_015_00001508995216894946_116_00003338886116348349_115_00001224744871391589_0,
  017_00044749949819088924_118_00003747489239670474_015_00005891636454279965_116_00026370146666577576_016_00015561272604423524_116_00003338886116348349_015_00000816496580927726_0,
  017_00044749949819088924_117_00007114837484523745_116_00004115244506535067_016_00002922314207068864_014_00000158754862280729_116_00003338886116348349_115_00001224744871391589_0,
  017_00049749553181853884_016_00000636533963658965_016_00007933275453337764_116_00012626766051202365_016_00016346806663546964_116_00003338886116348349_115_00001224744871391589_0,
  016_00005474915654461884_016_00000636533963658965_117_00045614859865303564_117_00003881351382404913_016_00016818127099021027_116_00003338886116348349_015_00000816496580927726_0,
  017_00049749553181853884_016_00000636533963658965_115_00000472882654152859_016_00004126113968999543_016_00017132340722670405_016_00029950108064592316_115_00001224744871391589_0,
  017_00049749553181853884_016_00000636533963658965_017_00010723126984101795_116_00007410300416169433_116_00016959837443286896_116_00003338886116348349_015_00000816496580927726_0,
  017_00049749553181853884_016_00000636533963658965_016_00012116789328293607_116_00009316316705893005_116_00016645623819637518_016_00029950108064592316_115_00001224744871391589_0,
  016_00005474915654461884_016_00000636533963658965_017_00014069938084066472_117_00031970012494120725_116_00015860089760514078_116_00003338886116348349_015_00000816496580927726_0,
  016_00005474915654461884_017_00013105428197142516_116_00004673046356529179_016_00015361578413685846_116_00015545876136864702_116_00003338886116348349_015_00000816496580927726_0,
  016_00005974875990738095_016_00000636533963658965_014_00000413456062679851_115_00002436381373002645_116_00015231662513215327_116_00003338886116348349_115_00001224744871391589_0,
  016_00005474915654461884_118_00003747489239670474_116_00005900210426516227_016_00008138779842101795_116_00014760342077741262_116_00003338886116348349_115_00001224744871391589_0,
  016_00005474915654461884_118_00003747489239670474_117_00014377956265633265_116_00001993201487481394_114_00000142890216422672_116_00003338886116348349_015_00000816496580927726_0,
  017_00049749553181853884_117_00007114837484523745_116_00001772476736559794_017_00018188310919657433_116_00013974808018617824_116_00003338886116348349_015_00000816496580927726_0,
  017_00049749553181853884_118_00003747489239670474_116_00003278541731543898_016_00003524214088034203_116_00013660594394968446_116_00003338886116348349_015_00000816496580927726_0,
  016_00005474915654461884_118_00003747489239670474_117_00038363435815380104_018_00011344809589729025_115_00001334638077131907_016_00029950108064592316_115_00001224744871391589_0,
  016_00005474915654461884_016_00000636533963658965_019_00068269368420777075_117_00033976345430671806_115_00001256084671219563_116_00003338886116348349_015_00000816496580927726_0,
  017_00049749553181853884_118_00003747489239670474_116_00018227631311386112_015_00002800147591395795_116_00012246633088546255_016_00029950108064592316_115_00001224744871391589_0,
  016_00005474915654461884_016_00000636533963658965_116_00006792693386506806_016_00006934980080171117_116_00011461099029422814_116_00003338886116348349_015_00000816496580927726_0,
  016_00005974875990738095_016_00000636533963658965_016_00007096572678346594_116_00005103017539135641_115_00001114688540577344_116_00003338886116348349_115_00001224744871391589_0,
  016_00005474915654461884_016_00000636533963658965_016_00007096572678346594_116_00012827399344857475_116_00010675564970299374_116_00003338886116348349_015_00000816496580927726_0,
  016_00005474915654461884_016_00000636533963658965_116_00002776520066549197_016_00005831496965067996_116_00010361351346649998_116_00003338886116348349_015_00000816496580927726_0,
  016_00005474915654461884_017_00013105428197142516_016_00017360126718238265_116_00012325816110719694_116_00010047137723000623_116_00003338886116348349_115_00001224744871391589_0,
  016_00005474915654461884_016_00002658560531825208_016_00018698851158224135_116_00015234998868718825_116_00009575817287526558_116_00003338886116348349_015_00000816496580927726_0,
  016_00005474915654461884_016_00002658560531825208_116_00012649612811444988_016_00033719524783128647_116_00009261603663877183_116_00003338886116348349_015_00000816496580927726_1,
  016_00005974875990738095_016_00002658560531825208_117_00013262352565645041_115_00000159193490017117_116_00008947390040227806_116_00003338886116348349_015_00000816496580927726_0,
  016_00005974875990738095_016_00002658560531825208_117_00012704550715650928_016_00004427063909482209_115_00000863317641657843_116_00003338886116348349_015_00000816496580927726_0,
  016_00005974875990738095_017_00033325693878808776_018_00040295047841724455_019_00013131449069732513_116_00008318962792929054_116_00003338886116348349_015_00000816496580927726_0,
  016_00006474836327014591_017_00040065782439365477_117_00032227615465444864_016_00000915981270517738_116_00008004749169279678_116_00003338886116348349_015_00000816496580927726_0,
  016_00006474836327014591_017_00040065782439365477_017_00036939813933825083_116_00007510617062996991_116_00007690535545630302_016_00029950108064592316_115_00001224744871391589_0,
  016_00005974875990738095_016_00004680587099991834_016_00006538770828352481_115_00001383056581313304_116_00006905001486506862_016_00029950108064592316_115_00001224744871391589_0,
  016_00005974875990738095_017_00040065782439365477_116_00010418405411468539_015_00001205112906837649_116_00006119467427383422_016_00029950108064592316_115_00001224744871391589_0,
  016_00006474836327014591_016_00004680587099991834_117_00019398172915580278_015_00000723593002065379_116_00005333933368259982_116_00003338886116348349_015_00000816496580927726_0,
  016_00006474836327014591_017_00040065782439365477_116_00005732869871517993_017_00042264306158271003_116_00005019719744610606_116_00003338886116348349_015_00000816496580927726_0,
  016_00005974875990738095_017_00033325693878808776_117_00018840371065586167_016_00003624530734861761_115_00000470550612096123_016_00029950108064592316_115_00001224744871391589_0,
  016_00006474836327014591_017_00033325693878808776_115_00000740627542150033_016_00007135613373826232_115_00000391997206183779_116_00003338886116348349_015_00000816496580927726_0,
  016_00006474836327014591_017_00033325693878808776_117_00032227615465444864_118_00028781849141293357_117_00036057584381884134_116_00003338886116348349_115_00001224744871391589_0,
  016_00006974796663290803_016_00004680587099991834_116_00002888080436548019_016_00004627697203137324_115_00000313443800271435_116_00003338886116348349_015_00000816496580927726_0,
  016_00006974796663290803_016_00004680587099991834_116_00005732869871517993_016_00014157778651755175_117_00028202243790649734_116_00003338886116348349_015_00000816496580927726_0,
  016_00006974796663290803_016_00004680587099991834_116_00009525922451477957_016_00023788176747200582_117_00025060107554155975_116_00003338886116348349_115_00001224744871391589_1,
  016_00006974796663290803_016_00004680587099991834_117_00016609163665609716_117_00016922515469987276_117_00020346903199415334_116_00003338886116348349_015_00000816496580927726_0,
  016_00006974796663290803_016_00005354595956047504_018_00023560992341901083_117_00030966846025845146_117_00017204766962921575_116_00003338886116348349_015_00000816496580927726_0,
  016_00006974796663290803_016_00005354595956047504_016_00008881538598327754_116_00010419799820996123_117_00014062630726427813_116_00003338886116348349_015_00000816496580927726_0,
  016_00006974796663290803_016_00004680587099991834_117_00038363435815380104_016_00006533713492860893_117_00010920494489934053_116_00003338886116348349_115_00001224744871391589_0,
  016_00006974796663290803_016_00005354595956047504_016_00011112745998304205_116_00009717583293203229_118_00062072901351934134_116_00003338886116348349_115_00001224744871391589_0,
  016_00006974796663290803_016_00005354595956047504_117_00004895324815733354_118_00008718519775782523_118_00014940857804527726_116_00003338886116348349_115_00001224744871391589_0,
  016_00006974796663290803_016_00005354595956047504_016_00011224306368303028_115_00001082106640830635_017_00003219118574287868_116_00003338886116348349_015_00000816496580927726_0,
  016_00006974796663290803_016_00005354595956047504_016_00012897711918285364_115_00001593721539651172_017_00006361254810781627_116_00003338886116348349_015_00000816496580927726_0,
  016_00006474836327014591_017_00040065782439365477_117_00006568730365715691_016_00004025797322171985_017_00009503391047275388_016_00029950108064592316_115_00001224744871391589_0,
  016_00006474836327014591_016_00004680587099991834_117_00012704550715650928_016_00006032130258723112_016_00001735873163850979_116_00003338886116348349_015_00000816496580927726_0,
  016_00006974796663290803_016_00004680587099991834_016_00004307563428376032_117_00034979511898947385_016_00002050086787500355_116_00003338886116348349_015_00000816496580927726_0,
  016_00006974796663290803_016_00004680587099991834_016_00013790194878275945_116_00013930882459960594_016_00002364300411149731_116_00003338886116348349_015_00000816496580927726_0,
  016_00006974796663290803_016_00005354595956047504_116_00008354538566490322_016_00012753345596169388_016_00002678514034799107_116_00003338886116348349_015_00000816496580927726_0,
  016_00006974796663290803_016_00004680587099991834_016_00005590507683362491_115_00001021916652734101_016_00002992727658448483_116_00003338886116348349_115_00001224744871391589_0,
  016_00007474756999567299_016_00004680587099991834_116_00008075637641493265_016_00006734346786516008_016_00003464048093922547_016_00029950108064592316_115_00001224744871391589_0,
  016_00007474756999567299_016_00004680587099991834_016_00008212176378334819_116_00012125182817064584_016_00004249582153045987_116_00003338886116348349_015_00000816496580927726_0,
  016_00007474756999567299_017_00040065782439365477_016_00005534727498363079_115_00000811251694396233_016_00004563795776695363_116_00003338886116348349_115_00001224744871391589_0,
  016_00007474756999567299_017_00040065782439365477_116_00005119287836524469_016_00001919147738793301_016_00005035116212169427_116_00003338886116348349_115_00001224744871391589_0,
  016_00007474756999567299_017_00040065782439365477_116_00001493575811562738_117_00009900350192058306_016_00005506436647643491_016_00029950108064592316_115_00001224744871391589_0,
  016_00007974717335843795_016_00005354595956047504_015_00002355172725317291_116_00018244498273545515_016_00006291970706766932_116_00003338886116348349_015_00000816496580927726_0,
  016_00007474756999567299_016_00004680587099991834_016_00003191959728387807_117_00046014343049978595_016_00006606184330416307_116_00003338886116348349_015_00000816496580927726_0,
  016_00007474756999567299_016_00004680587099991834_014_00000185315106032259_116_00018746081507683297_016_00006920397954065683_116_00003338886116348349_115_00001224744871391589_0,
  016_00007474756999567299_016_00004680587099991834_014_00000224919037381841_116_00019548614682303749_016_00007391718389539748_116_00003338886116348349_015_00000816496580927726_0,
  016_00006974796663290803_017_00040065782439365477_017_00010165325134107683_117_00017925681938262783_016_00007705932013189124_116_00003338886116348349_015_00000816496580927726_0,
  016_00006974796663290803_017_00040065782439365477_017_00006260712184148895_117_00031970012494120725_016_00008020145636838499_116_00003338886116348349_015_00000816496580927726_0,
  016_00006474836327014591_017_00040065782439365477_015_00002383062817816997_116_00017441965098925065_016_00008334359260487876_116_00003338886116348349_015_00000816496580927726_0,
  016_00006474836327014591_017_00040065782439365477_117_00022187182165550842_117_00038992177772049624_016_00008648572884137251_116_00003338886116348349_115_00001224744871391589_0,
  016_00006474836327014591_017_00040065782439365477_117_00009915541465680366_116_00003698584483549854_016_00009119893319611315_116_00003338886116348349_015_00000816496580927726_0,
  016_00006974796663290803_016_00004680587099991834_116_00009135461156482079_017_00020194643856208588_016_00009434106943260692_116_00003338886116348349_115_00001224744871391589_0,
  016_00006974796663290803_017_00040065782439365477_016_00005311606758365435_116_00008915050118582778_016_00009905427378734756_116_00003338886116348349_015_00000816496580927726_0,
  016_00006474836327014591_017_00040065782439365477_116_00008968120601483845_016_00009442896250860024_016_00010219641002384132_116_00003338886116348349_115_00001224744871391589_0,
  016_00006974796663290803_016_00004680587099991834_116_00006179111351513282_015_00001375651206444495_016_00010690961437858195_116_00003338886116348349_015_00000816496580927726_0,
  016_00006974796663290803_017_00040065782439365477_015_00001763902764323532_116_00014733415634581044_016_00011005175061507573_116_00003338886116348349_115_00001224744871391589_0,
  016_00006974796663290803_017_00040065782439365477_017_00021879163983984046_116_00007009033828859209_016_00011476495496981636_116_00003338886116348349_015_00000816496580927726_0,
  016_00006974796663290803_017_00033325693878808776_116_00004896167096526824_016_00005329913730930215_015_00001179070912063101_116_00003338886116348349_115_00001224744871391589_0,
  016_00007474756999567299_017_00033325693878808776_016_00005869408608359546_116_00005103017539135641_016_00012262029556105076_116_00003338886116348349_015_00000816496580927726_0,
  016_00006974796663290803_016_00002658560531825208_116_00008410318751489733_016_00005329913730930215_016_00012576243179754452_116_00003338886116348349_015_00000816496580927726_0,
  016_00006974796663290803_016_00002658560531825208_018_00023560992341901083_016_00000915981270517738_016_00012890456803403827_116_00003338886116348349_015_00000816496580927726_0,
  016_00006474836327014591_016_00002658560531825208_117_00021071578465562615_016_00001618197798310635_016_00013204670427053204_116_00003338886116348349_015_00000816496580927726_0,
  016_00006474836327014591_016_00002658560531825208_116_00001772476736559794_117_00008897183723782728_015_00001351888405070258_116_00003338886116348349_015_00000816496580927726_0,
  016_00006974796663290803_016_00002658560531825208_017_00011280928834095907_115_00000399953442403252_016_00013833097674351955_116_00003338886116348349_015_00000816496580927726_0,
  016_00007474756999567299_017_00033325693878808776_118_00060109285157215794_117_00043004843645151863_016_00014147311298001333_116_00003338886116348349_015_00000816496580927726_0,
  016_00007474756999567299_017_00033325693878808776_116_00001995597476557439_117_00017925681938262783_016_00014461524921650708_116_00003338886116348349_115_00001224744871391589_0,
  016_00007474756999567299_017_00033325693878808776_116_00009302801711480313_016_00004025797322171985_016_00014932845357124773_116_00003338886116348349_015_00000816496580927726_0,
  016_00007474756999567299_017_00033325693878808776_016_00003415080468385452_116_00007209667122514325_016_00015247058980774149_116_00003338886116348349_115_00001224744871391589_0,
  016_00007474756999567299_017_00040065782439365477_116_00004784606726528002_016_00004025797322171985_016_00015718379416248212_116_00003338886116348349_015_00000816496580927726_0,
  016_00007974717335843795_016_00004680587099991834_016_00015296259873260047_116_00015435632162373938_015_00001603259303989759_116_00003338886116348349_115_00001224744871391589_0,
  016_00007974717335843795_016_00004680587099991834_117_00045614859865303564_017_00004143980363799563_016_00016503913475371652_116_00003338886116348349_015_00000816496580927726_0,
  016_00007974717335843795_017_00040065782439365477_017_00007934117734131232_117_00010903516660333884_116_00016959837443286896_116_00003338886116348349_115_00001224744871391589_0,
  016_00008474677672120007_016_00004680587099991834_016_00012507250623289485_116_00014131515753615709_115_00001648851700781283_116_00003338886116348349_015_00000816496580927726_0,
  016_00008474677672120007_016_00004680587099991834_015_00002701009872313641_116_00019147348094993524_116_00016174303384163455_116_00003338886116348349_015_00000816496580927726_0,
  016_00007974717335843795_016_00004680587099991834_117_00045614859865303564_016_00007837829901619122_116_00015860089760514078_116_00003338886116348349_115_00001224744871391589_0,
  016_00007974717335843795_016_00004680587099991834_015_00000782171508333894_116_00010520116467823681_116_00015388769325040015_116_00003338886116348349_015_00000816496580927726_0,
  016_00007974717335843795_017_00040065782439365477_015_00003147251352308931_114_00000203511478569242_115_00001507455570139064_116_00003338886116348349_015_00000816496580927726_0,
  016_00007474756999567299_016_00004680587099991834_117_00043941454315321227_117_00013913016065160544_116_00014760342077741262_116_00003338886116348349_115_00001224744871391589_0,
  016_00007474756999567299_016_00004680587099991834_115_00000472882654152859_117_00005887684318956068_114_00000142890216422672_116_00003338886116348349_115_00001224744871391589_0,
  016_00007474756999567299_017_00040065782439365477_117_00032227615465444864_016_00006834663433343559_116_00013817701206793134_116_00003338886116348349_015_00000816496580927726_0,
  016_00007474756999567299_016_00004680587099991834_116_00006402232091510928_016_00011148279246928485_116_00013503487583143758_116_00003338886116348349_015_00000816496580927726_0,
  016_00007974717335843795_016_00004680587099991834_117_00024976191415521404_117_00004884517850680491_116_00013189273959494383_116_00003338886116348349_015_00000816496580927726_0]

/-- lr/data.csv 6602-6701 -/
def dataCsv66 : List ℕ := [
  016_00007474756999567299_017_00040065782439365477_116_00006402232091510928_016_00007035296726998674_116_00012875060335845006_116_00003338886116348349_115_00001224744871391589_0,
  016_00007474756999567299_016_00004680587099991834_116_00010697306336465593_015_00000793814654844668_116_00012403739900370943_116_00003338886116348349_115_00001224744871391589_0,
  016_00007474756999567299_017_00040065782439365477_115_00000919124134148149_016_00006734346786516008_116_00011932419464896877_116_00003338886116348349_015_00000816496580927726_0,
  016_00007474756999567299_017_00040065782439365477_116_00007573615976498564_016_00007436563314308898_116_00011618205841247502_116_00003338886116348349_115_00001224744871391589_0,
  016_00007474756999567299_017_00040065782439365477_017_00019090154734013484_116_00002595101368446733_115_00001114688540577344_116_00003338886116348349_115_00001224744871391589_0,
  016_00007974717335843795_017_00040065782439365477_016_00008491077303331875_115_00000991821658685834_116_00010675564970299374_116_00003338886116348349_115_00001224744871391589_0,
  016_00007474756999567299_017_00033325693878808776_118_00004329100157804543_016_00004326747262654651_115_00001020424453482531_016_00029950108064592316_115_00001224744871391589_0,
  016_00007474756999567299_017_00033325693878808776_016_00000960752328411357_117_00008897183723782728_115_00000941871047570187_116_00003338886116348349_015_00000816496580927726_0,
  016_00007474756999567299_016_00002658560531825208_017_00030246191733895733_117_00031970012494120725_116_00009104496852052494_116_00003338886116348349_115_00001224744871391589_0,
  016_00007474756999567299_016_00002658560531825208_117_00036132228415403655_118_00008718519775782523_115_00000863317641657843_116_00003338886116348349_015_00000816496580927726_0,
  016_00007474756999567299_016_00002658560531825208_018_00023560992341901083_116_00006005867360583647_116_00008318962792929054_116_00003338886116348349_015_00000816496580927726_0,
  016_00007474756999567299_017_00033325693878808776_016_00002689938063393106_116_00006206500654238761_116_00008004749169279678_016_00029950108064592316_115_00001224744871391589_0,
  016_00007974717335843795_017_00040065782439365477_113_00000017669829461392_016_00030108125497336626_116_00007219215110156237_116_00003338886116348349_015_00000816496580927726_0,
  016_00008474677672120007_017_00040065782439365477_117_00014377956265633265_017_00011166145641728534_116_00006905001486506862_116_00003338886116348349_015_00000816496580927726_0,
  016_00008474677672120007_017_00040065782439365477_016_00006761891568350127_116_00011322649642444131_116_00006590787862857486_116_00003338886116348349_015_00000816496580927726_0,
  016_00008474677672120007_017_00040065782439365477_018_00034717029341783334_017_00021197810324484165_115_00000627657423920811_116_00003338886116348349_015_00000816496580927726_0,
  016_00008474677672120007_017_00040065782439365477_116_00008856560231485022_016_00005831496965067996_116_00005962360615558734_116_00003338886116348349_115_00001224744871391589_0,
  016_00007974717335843795_017_00040065782439365477_116_00012147591146450287_015_00002087899398920144_115_00000549104018008467_116_00003338886116348349_015_00000816496580927726_0,
  016_00007974717335843795_017_00040065782439365477_116_00012816953366443222_015_00002589482633057926_116_00005176826556435293_116_00003338886116348349_115_00001224744871391589_1,
  016_00008474677672120007_016_00004680587099991834_017_00049211454633695556_116_00008714416824927665_115_00000470550612096123_116_00003338886116348349_115_00001224744871391589_0,
  016_00007974717335843795_016_00004680587099991834_013_00000014069095803273_115_00001623816533699439_117_00042341856854871657_116_00003338886116348349_115_00001224744871391589_0,
  016_00008474677672120007_016_00004680587099991834_016_00017973708753231787_116_00018244498273545515_117_00037628652500131016_116_00003338886116348349_115_00001224744871391589_0,
  016_00008474677672120007_016_00004680587099991834_117_00025533993265515514_016_00011148279246928485_117_00032915448145390375_116_00003338886116348349_015_00000816496580927726_0,
  016_00008474677672120007_016_00004680587099991834_116_00005398188761521525_017_00011166145641728534_117_00029773311908896616_116_00003338886116348349_115_00001224744871391589_0,
  016_00008474677672120007_016_00004680587099991834_117_00003779721115745129_118_00018750184458538297_117_00025060107554155975_116_00003338886116348349_015_00000816496580927726_0,
  016_00007974717335843795_016_00004680587099991834_116_00006569572646509162_016_00004427063909482209_117_00021917971317662216_116_00003338886116348349_115_00001224744871391589_0,
  016_00007974717335843795_017_00040065782439365477_017_00041402228733777985_015_00000252104761975864_117_00017204766962921575_116_00003338886116348349_015_00000816496580927726_0,
  016_00008474677672120007_017_00040065782439365477_016_00018810411528222957_116_00017943548333062846_117_00014062630726427813_116_00003338886116348349_115_00001224744871391589_0,
  016_00007974717335843795_017_00033325693878808776_017_00030246191733895733_116_00005504284126445864_117_00009349426371687174_116_00003338886116348349_015_00000816496580927726_0,
  016_00007974717335843795_017_00033325693878808776_116_00007908297086495032_016_00009442896250860024_118_00062072901351934134_116_00003338886116348349_015_00000816496580927726_0,
  016_00007974717335843795_017_00033325693878808776_115_00000696003394150504_016_00009342579604032467_117_00003065153898699653_116_00003338886116348349_115_00001224744871391589_0,
  016_00007474756999567299_016_00002658560531825208_116_00008968120601483845_016_00015361578413685846_018_00016480504560409875_116_00003338886116348349_115_00001224744871391589_0,
  016_00006974796663290803_016_00002658560531825208_115_00001326319484643851_016_00011248595893756042_017_00006361254810781627_116_00003338886116348349_015_00000816496580927726_0,
  016_00007474756999567299_017_00033325693878808776_016_00011056965813304793_116_00010720749761478792_017_00009503391047275388_116_00003338886116348349_115_00001224744871391589_0,
  016_00007474756999567299_017_00033325693878808776_116_00007964077271494443_017_00045273805563097663_016_00001421659540201603_116_00003338886116348349_015_00000816496580927726_0,
  016_00007474756999567299_017_00033325693878808776_117_00002664117415756904_117_00006890850787231645_016_00001735873163850979_116_00003338886116348349_015_00000816496580927726_0,
  016_00007474756999567299_017_00033325693878808776_015_00001312083265828301_116_00014532782340925934_016_00002050086787500355_116_00003338886116348349_115_00001224744871391589_0,
  016_00007474756999567299_017_00033325693878808776_116_00004784606726528002_016_00008038463195274238_016_00002521407222974419_016_00029950108064592316_115_00001224744871391589_0,
  016_00007474756999567299_017_00033325693878808776_116_00004784606726528002_017_00042264306158271003_016_00003306941282097859_116_00003338886116348349_015_00000816496580927726_0,
  016_00006974796663290803_017_00033325693878808776_116_00008856560231485022_016_00008439729782584461_017_00036211549057472353_116_00003338886116348349_015_00000816496580927726_0,
  016_00006974796663290803_016_00002658560531825208_115_00001142244874145794_016_00003223264147551537_016_00003935368529396611_116_00003338886116348349_015_00000816496580927726_0,
  016_00007474756999567299_017_00033325693878808776_016_00009104659338325399_116_00011322649642444131_016_00004249582153045987_116_00003338886116348349_015_00000816496580927726_0,
  016_00007974717335843795_017_00040065782439365477_116_00006011770796515049_117_00024947847216191754_016_00004563795776695363_116_00003338886116348349_015_00000816496580927726_0,
  016_00007474756999567299_017_00033325693878808776_116_00012872733551442632_016_00020578044048718778_017_00048780094003447394_116_00003338886116348349_115_00001224744871391589_0,
  016_00007474756999567299_017_00040065782439365477_017_00014627739934060582_016_00003925480675344427_016_00005349329835818804_116_00003338886116348349_015_00000816496580927726_0,
  016_00007474756999567299_016_00002658560531825208_117_00029438606215474306_117_00003881351382404913_016_00005663543459468179_116_00003338886116348349_115_00001224744871391589_0,
  016_00007474756999567299_017_00033325693878808776_116_00003334321916543309_116_00005805234066928531_016_00006134863894942243_116_00003338886116348349_015_00000816496580927726_0,
  016_00007474756999567299_017_00033325693878808776_015_00002165520096319293_115_00001764259839258018_016_00006449077518591619_116_00003338886116348349_015_00000816496580927726_0,
  016_00007474756999567299_016_00002658560531825208_116_00002832300251548608_017_00011166145641728534_016_00006763291142240996_116_00003338886116348349_015_00000816496580927726_0,
  016_00007474756999567299_016_00002658560531825208_115_00001052996578146736_015_00001496031182637562_016_00007077504765890371_116_00003338886116348349_115_00001224744871391589_0,
  016_00007974717335843795_016_00002658560531825208_017_00012396532534084133_116_00004701750951825417_016_00007548825201364435_116_00003338886116348349_015_00000816496580927726_0,
  016_00007474756999567299_016_00002658560531825208_116_00014657699471423793_015_00001566252835416852_016_00007863038825013812_116_00003338886116348349_115_00001224744871391589_0,
  016_00007474756999567299_016_00002658560531825208_016_00002299476768397227_117_00043004843645151863_016_00008334359260487876_016_00029950108064592316_115_00001224744871391589_0,
  016_00006974796663290803_017_00019845516757699214_016_00003972882318379565_116_00010921383055133904_016_00009119893319611315_116_00003338886116348349_115_00001224744871391589_0,
  016_00006974796663290803_017_00019845516757699214_016_00037050532023030436_116_00023460963908578445_016_00009591213755085379_116_00003338886116348349_015_00000816496580927726_0,
  016_00006974796663290803_017_00019845516757699214_016_00005590507683362491_116_00007309983769341876_016_00009905427378734756_116_00003338886116348349_015_00000816496580927726_0,
  016_00006974796663290803_016_00002658560531825208_017_00007934117734131232_016_00004728013849964882_016_00010219641002384132_116_00003338886116348349_115_00001224744871391589_0,
  016_00006974796663290803_017_00019845516757699214_115_00000919124134148149_016_00007637196607964014_016_00010690961437858195_116_00003338886116348349_015_00000816496580927726_0,
  016_00006974796663290803_016_00002658560531825208_115_00000606755098151446_016_00010947645953273368_016_00011005175061507573_116_00003338886116348349_015_00000816496580927726_0,
  016_00006474836327014591_017_00019845516757699214_017_00048653652783701445_116_00008714416824927665_016_00011319388685156948_116_00003338886116348349_015_00000816496580927726_0,
  016_00006974796663290803_017_00033325693878808776_116_00006569572646509162_015_00000382516402851687_016_00011633602308806323_016_00029950108064592316_115_00001224744871391589_0,
  016_00006474836327014591_016_00002658560531825208_117_00021071578465562615_118_00018750184458538297_016_00012419136367929764_116_00003338886116348349_115_00001224744871391589_0,
  016_00006474836327014591_016_00002658560531825208_014_00000309147116730952_116_00021354314325199764_016_00012890456803403827_116_00003338886116348349_115_00001224744871391589_0,
  016_00006474836327014591_016_00002658560531825208_117_00019398172915580278_015_00000723593002065379_016_00013361777238877892_116_00003338886116348349_015_00000816496580927726_0,
  016_00006474836327014591_016_00002658560531825208_118_00004329100157804543_115_00000159193490017117_016_00013675990862527267_116_00003338886116348349_015_00000816496580927726_0,
  016_00006474836327014591_016_00002658560531825208_116_00005509749131520348_017_00015178811514830773_016_00013990204486176645_116_00003338886116348349_015_00000816496580927726_0,
  016_00006474836327014591_016_00002658560531825208_115_00000696003394150504_016_00011449229187411152_015_00001430441810982602_116_00003338886116348349_015_00000816496580927726_0,
  016_00006974796663290803_017_00033325693878808776_118_00015485137157686792_118_00008718519775782523_016_00014618631733475396_016_00029950108064592316_115_00001224744871391589_0,
  016_00006974796663290803_017_00033325693878808776_116_00003501662471541543_117_00007894017255507152_016_00015404165792598836_116_00003338886116348349_015_00000816496580927726_0,
  016_00006974796663290803_017_00033325693878808776_017_00017974551034025257_116_00006106184007411204_016_00015718379416248212_116_00003338886116348349_015_00000816496580927726_0,
  016_00007474756999567299_017_00040065782439365477_015_00002561559409815113_116_00019849564622786418_015_00001603259303989759_116_00003338886116348349_015_00000816496580927726_0,
  016_00007474756999567299_017_00040065782439365477_116_00010139504486471482_017_00021197810324484165_016_00016346806663546964_116_00003338886116348349_015_00000816496580927726_0,
  016_00007974717335843795_016_00004680587099991834_116_00006402232091510928_016_00010546379365963146_015_00001666102028719634_116_00003338886116348349_015_00000816496580927726_0,
  016_00007974717335843795_016_00004680587099991834_116_00008856560231485022_016_00011850495774721375_016_00016975233910845717_116_00003338886116348349_015_00000816496580927726_1,
  016_00007474756999567299_016_00004680587099991834_017_00044191237983748544_117_00045011176581703016_016_00017289447534495093_116_00003338886116348349_015_00000816496580927726_0,
  016_00007474756999567299_017_00040065782439365477_016_00002243696583397816_116_00012024866170237025_016_00017603661158144468_116_00003338886116348349_015_00000816496580927726_0,
  016_00007474756999567299_016_00004680587099991834_116_00006458012276510339_016_00004025797322171985_016_00017917874781793846_116_00003338886116348349_015_00000816496580927726_0,
  016_00007474756999567299_016_00004680587099991834_116_00005788650056517404_117_00014916182533436123_015_00001823208840544322_116_00003338886116348349_015_00000816496580927726_0,
  016_00007474756999567299_016_00004680587099991834_116_00011310888371459118_016_00025694193036924142_116_00016959837443286896_116_00003338886116348349_115_00001224744871391589_1,
  016_00007974717335843795_016_00005354595956047504_116_00008187198011492087_017_00024207309729310825_115_00001648851700781283_116_00003338886116348349_015_00000816496580927726_0,
  016_00007474756999567299_016_00005354595956047504_116_00006792693386506806_016_00009743846191342698_116_00016174303384163455_116_00003338886116348349_015_00000816496580927726_0,
  016_00006974796663290803_016_00004680587099991834_116_00006346451906511517_016_00005129280437275106_116_00015860089760514078_116_00003338886116348349_015_00000816496580927726_0,
  016_00007474756999567299_016_00005354595956047504_116_00001493575811562738_117_00010903516660333884_116_00015545876136864702_116_00003338886116348349_015_00000816496580927726_0,
  016_00007474756999567299_015_00000602860481210279_115_00001231493170144852_016_00010646696012790704_116_00015231662513215327_116_00003338886116348349_015_00000816496580927726_0,
  016_00007974717335843795_015_00000602860481210279_118_00004329100157804543_017_00004143980363799563_115_00001491744888956595_116_00003338886116348349_015_00000816496580927726_0,
  016_00007974717335843795_015_00000602860481210279_117_00003779721115745129_016_00003624530734861761_116_00014603235265916574_116_00003338886116348349_015_00000816496580927726_0,
  016_00008474677672120007_015_00000670261366815846_016_00009829801743317745_116_00015234998868718825_114_00000142890216422672_116_00003338886116348349_015_00000816496580927726_0,
  016_00008474677672120007_015_00000670261366815846_016_00008993098968326577_116_00011322649642444131_116_00013974808018617824_116_00003338886116348349_015_00000816496580927726_0,
  016_00008474677672120007_015_00000670261366815846_017_00005145108484160671_017_00003140813895523986_116_00013660594394968446_116_00003338886116348349_015_00000816496580927726_0,
  016_00008474677672120007_015_00000670261366815846_018_00040295047841724455_016_00003022630853896422_115_00001334638077131907_116_00003338886116348349_015_00000816496580927726_0,
  016_00008474677672120007_015_00000670261366815846_115_00001092042707646324_016_00009242262957204916_116_00013032167147669695_116_00003338886116348349_015_00000816496580927726_0,
  016_00008474677672120007_015_00000670261366815846_117_00016051361815615603_016_00007837829901619122_116_00012717953524020318_116_00003338886116348349_115_00001224744871391589_0,
  016_00008974638008396503_015_00000670261366815846_015_00001674654468324474_114_00000164387986306495_116_00012246633088546255_116_00003338886116348349_115_00001224744871391589_0,
  016_00008974638008396503_015_00000670261366815846_016_00012116789328293607_116_00013328982578995259_115_00001177531265307219_116_00003338886116348349_115_00001224744871391589_0,
  016_00008474677672120007_015_00000602860481210279_116_00013318975031437923_015_00002278501027892502_116_00011303992217598127_116_00003338886116348349_115_00001224744871391589_0,
  016_00008474677672120007_015_00000670261366815846_116_00012705392996444398_016_00015863161647823627_116_00010832671782124061_116_00003338886116348349_115_00001224744871391589_0,
  016_00008474677672120007_015_00000602860481210279_016_00005423167128364257_116_00008714416824927665_116_00010361351346649998_116_00003338886116348349_015_00000816496580927726_0,
  016_00007974717335843795_015_00000602860481210279_016_00005813628423360135_116_00005905550713756088_116_00010047137723000623_116_00003338886116348349_015_00000816496580927726_0,
  016_00007974717335843795_016_00005354595956047504_116_00006736913201507395_016_00004728013849964882_116_00009732924099351247_116_00003338886116348349_015_00000816496580927726_0,
  016_00008474677672120007_016_00005354595956047504_117_00012704550715650928_017_00004143980363799563_115_00000941871047570187_116_00003338886116348349_115_00001224744871391589_0]

/-- lr/data.csv 6702-6801 -/
def dataCsv67 : List ℕ := [
  016_00007974717335843795_015_00000602860481210279_116_00006681133016507984_015_00001024542942548048_116_00008947390040227806_016_00029950108064592316_115_00001224744871391589_0,
  016_00007974717335843795_015_00000602860481210279_016_00004698024723371911_116_00005905550713756088_116_00008161855981104366_116_00003338886116348349_015_00000816496580927726_0,
  016_00007974717335843795_016_00005354595956047504_016_00006985012308347772_116_00008012200297134773_115_00000784764235745499_116_00003338886116348349_115_00001224744871391589_0,
  016_00007474756999567299_016_00004680587099991834_016_00011447427108300672_116_00011824232876581913_116_00007376321921980926_116_00003338886116348349_115_00001224744871391589_0,
  016_00007474756999567299_016_00004680587099991834_117_00016051361815615603_115_00000399953442403252_116_00006905001486506862_116_00003338886116348349_115_00001224744871391589_0,
  016_00007474756999567299_017_00040065782439365477_114_00000087449998614862_016_00018170444524857428_116_00006433681051032798_116_00003338886116348349_115_00001224744871391589_0,
  016_00006974796663290803_017_00040065782439365477_116_00008800780046485611_016_00006132446905550669_116_00005962360615558734_116_00003338886116348349_015_00000816496580927726_0,
  016_00006474836327014591_017_00040065782439365477_016_00000960752328411357_117_00009900350192058306_116_00005648146991909357_116_00003338886116348349_015_00000816496580927726_0,
  016_00006974796663290803_017_00040065782439365477_116_00004171024691534478_116_00002595101368446733_116_00005333933368259982_116_00003338886116348349_115_00001224744871391589_0,
  016_00006974796663290803_017_00040065782439365477_117_00032227615465444864_117_00023944680747916175_117_00048626129327859174_116_00003338886116348349_015_00000816496580927726_0,
  016_00007474756999567299_016_00004680587099991834_116_00012036030776451463_016_00009743846191342698_117_00045483993091365416_116_00003338886116348349_015_00000816496580927726_0,
  016_00007474756999567299_016_00004680587099991834_116_00006290671721512106_016_00006132446905550669_117_00042341856854871657_116_00003338886116348349_015_00000816496580927726_0,
  016_00006974796663290803_016_00004680587099991834_117_00012704550715650928_117_00035982678367222964_115_00000391997206183779_016_00029950108064592316_115_00001224744871391589_0,
  016_00006474836327014591_017_00040065782439365477_116_00006848473571506217_016_00005229597084102664_115_00000313443800271435_116_00003338886116348349_015_00000816496580927726_0,
  016_00006474836327014591_017_00040065782439365477_116_00005509749131520348_016_00013856828711272502_117_00028202243790649734_116_00003338886116348349_015_00000816496580927726_0,
  016_00006474836327014591_017_00040065782439365477_017_00020763560283995822_116_00009617266646375675_117_00025060107554155975_116_00003338886116348349_015_00000816496580927726_0,
  016_00006474836327014591_017_00040065782439365477_116_00008466098936489144_016_00013656195417617392_117_00021917971317662216_116_00003338886116348349_015_00000816496580927726_0,
  016_00006974796663290803_017_00040065782439365477_116_00004171024691534478_016_00008640363076239577_117_00018775835081168454_116_00003338886116348349_115_00001224744871391589_0,
  016_00006974796663290803_017_00040065782439365477_016_00033369039813069294_116_00022056530852992657_117_00014062630726427813_116_00003338886116348349_015_00000816496580927726_0,
  016_00006974796663290803_017_00040065782439365477_116_00006011770796515049_017_00006150313300350718_117_00010920494489934053_116_00003338886116348349_115_00001224744871391589_0,
  016_00006474836327014591_017_00040065782439365477_117_00045057058015309454_016_00008038463195274238_118_00062072901351934134_116_00003338886116348349_015_00000816496580927726_0,
  016_00006974796663290803_016_00004680587099991834_116_00014434578731426149_015_00002107962728285656_117_00003065153898699653_116_00003338886116348349_015_00000816496580927726_0,
  016_00006974796663290803_016_00004680587099991834_016_00006594551013351894_116_00011322649642444131_019_00007698233779410749_116_00003338886116348349_015_00000816496580927726_0,
  016_00006974796663290803_017_00040065782439365477_017_00014627739934060582_117_00038992177772049624_017_00003219118574287868_116_00003338886116348349_115_00001224744871391589_0,
  016_00006474836327014591_017_00040065782439365477_017_00011838730684090021_117_00031970012494120725_017_00007932322929028508_116_00003338886116348349_015_00000816496580927726_0,
  016_00007474756999567299_016_00004680587099991834_116_00010027944116472658_016_00007135613373826232_017_00011074459165522269_116_00003338886116348349_115_00001224744871391589_0,
  016_00007474756999567299_016_00005354595956047504_116_00002162938031555673_017_00010162979173452956_016_00001578766352026291_116_00003338886116348349_015_00000816496580927726_0,
  016_00007474756999567299_016_00005354595956047504_016_00013734414693276533_116_00014532782340925934_017_00018929799756756668_116_00003338886116348349_015_00000816496580927726_0,
  016_00007474756999567299_015_00000602860481210279_016_00019647114303214126_116_00016840065217959728_016_00002207193599325043_116_00003338886116348349_015_00000816496580927726_0,
  016_00007474756999567299_015_00000602860481210279_117_00008242135915698029_017_00004143980363799563_016_00002521407222974419_016_00029950108064592316_115_00001224744871391589_0,
  016_00007974717335843795_015_00000670261366815846_116_00006011770796515049_017_00023204143261035248_016_00003306941282097859_116_00003338886116348349_115_00001224744871391589_0,
  016_00007974717335843795_015_00000602860481210279_116_00008577659306487967_016_00011248595893756042_016_00003778261717571923_116_00003338886116348349_015_00000816496580927726_0,
  016_00008474677672120007_015_00000670261366815846_116_00001995597476557439_016_00004828330496792433_016_00004092475341221299_116_00003338886116348349_015_00000816496580927726_0,
  016_00008474677672120007_015_00000670261366815846_116_00012705392996444398_016_00006834663433343559_017_00044066889648706753_116_00003338886116348349_115_00001224744871391589_0,
  016_00007974717335843795_015_00000602860481210279_017_00020205758434001708_018_00011344809589729025_017_00048780094003447394_116_00003338886116348349_115_00001224744871391589_0,
  016_00007974717335843795_015_00000670261366815846_117_00029996408065468416_018_00011344809589729025_016_00005349329835818804_116_00003338886116348349_015_00000816496580927726_0,
  016_00008474677672120007_015_00000670261366815846_117_00006568730365715691_016_00002220097679275974_016_00005663543459468179_116_00003338886116348349_015_00000816496580927726_0,
  016_00008474677672120007_015_00000670261366815846_118_00009907118657745668_116_00006507450594721428_016_00005977757083117555_116_00003338886116348349_115_00001224744871391589_0,
  016_00008974638008396503_015_00000737662252421413_116_00004226804876533889_015_00001014511277865292_016_00006449077518591619_016_00029950108064592316_115_00001224744871391589_0,
  016_00008474677672120007_016_00008050631380269416_117_00031669813615450754_016_00003624530734861761_015_00000723461157771506_116_00003338886116348349_015_00000816496580927726_0,
  016_00008974638008396503_016_00008050631380269416_116_00006792693386506806_016_00015963478294651186_016_00007548825201364435_116_00003338886116348349_015_00000816496580927726_0,
  016_00008474677672120007_015_00000737662252421413_117_00018282569215592054_117_00004884517850680491_016_00007863038825013812_116_00003338886116348349_115_00001224744871391589_0,
  016_00008474677672120007_016_00008050631380269416_016_00005590507683362491_116_00010018533233685898_016_00008334359260487876_016_00029950108064592316_115_00001224744871391589_0,
  016_00008474677672120007_016_00008050631380269416_116_00006736913201507395_116_00001993201487481394_016_00009119893319611315_116_00003338886116348349_015_00000816496580927726_0,
  016_00008474677672120007_015_00000670261366815846_116_00013430535401436745_016_00018170444524857428_016_00009434106943260692_116_00003338886116348349_115_00001224744871391589_0,
  016_00008974638008396503_015_00000737662252421413_116_00008019857456493854_016_00004627697203137324_016_00009905427378734756_116_00003338886116348349_115_00001224744871391589_0,
  016_00008474677672120007_015_00000737662252421413_017_00021879163983984046_017_00005147146832075141_015_00001037674781420882_116_00003338886116348349_115_00001224744871391589_0,
  016_00008974638008396503_015_00000737662252421413_016_00003247739913387218_115_00001021916652734101_016_00010848068249682883_116_00003338886116348349_115_00001224744871391589_0,
  016_00008474677672120007_015_00000670261366815846_015_00002661963742814053_115_00002075241444423442_016_00011319388685156948_016_00029950108064592316_115_00001224744871391589_0,
  016_00008474677672120007_015_00000670261366815846_016_00002578377693394283_117_00040998510708600777_016_00012104922744280389_116_00003338886116348349_015_00000816496580927726_0,
  016_00008474677672120007_015_00000670261366815846_117_00018840371065586167_016_00004025797322171985_016_00012419136367929764_116_00003338886116348349_115_00001224744871391589_0,
  016_00008474677672120007_015_00000670261366815846_117_00018840371065586167_117_00028960513089293993_016_00012890456803403827_116_00003338886116348349_115_00001224744871391589_0,
  016_00007974717335843795_015_00000602860481210279_016_00009327780078323045_116_00010520116467823681_016_00013361777238877892_116_00003338886116348349_015_00000816496580927726_0,
  016_00007974717335843795_015_00000602860481210279_116_00008577659306487967_015_00001074701265961826_016_00013675990862527267_116_00003338886116348349_015_00000816496580927726_0,
  016_00008974638008396503_015_00000737662252421413_116_00002441838956552729_117_00030966846025845146_016_00013990204486176645_116_00003338886116348349_015_00000816496580927726_0,
  016_00008974638008396503_015_00000737662252421413_016_00006929232123348361_116_00008413466884444997_015_00001430441810982602_116_00003338886116348349_115_00001224744871391589_0,
  016_00008974638008396503_016_00008050631380269416_016_00016802324868244152_116_00013429299225822813_016_00014775738545300083_116_00003338886116348349_015_00000816496580927726_0,
  016_00008974638008396503_016_00008050631380269416_015_00001579828153825475_115_00001383056581313304_015_00001508995216894946_116_00003338886116348349_015_00000816496580927726_0,
  016_00008474677672120007_015_00000737662252421413_016_00005869408608359546_116_00007209667122514325_016_00015404165792598836_116_00003338886116348349_015_00000816496580927726_0,
  016_00008474677672120007_015_00000670261366815846_116_00005453968946520936_016_00004326747262654651_016_00015718379416248212_116_00003338886116348349_015_00000816496580927726_1,
  016_00007474756999567299_015_00000602860481210279_116_00004896167096526824_017_00006150313300350718_116_00016959837443286896_116_00003338886116348349_015_00000816496580927726_0,
  016_00007474756999567299_015_00000602860481210279_116_00007740956531496798_016_00010847329306445812_116_00016645623819637518_116_00003338886116348349_015_00000816496580927726_0,
  016_00006974796663290803_016_00005354595956047504_116_00009860603561474425_016_00013254928830307169_116_00016331410195988143_116_00003338886116348349_015_00000816496580927726_0,
  016_00006974796663290803_016_00005354595956047504_016_00013567074138278299_115_00001352961587265037_116_00016017196572338768_116_00003338886116348349_115_00001224744871391589_0,
  016_00006974796663290803_015_00000602860481210279_118_00015485137157686792_117_00016922515469987276_116_00015545876136864702_116_00003338886116348349_015_00000816496580927726_0,
  016_00007474756999567299_015_00000602860481210279_016_00002299476768397227_116_00007711250356652106_116_00015231662513215327_116_00003338886116348349_015_00000816496580927726_0,
  016_00006974796663290803_015_00000670261366815846_116_00006234891536512694_016_00003223264147551537_115_00001491744888956595_116_00003338886116348349_115_00001224744871391589_0,
  016_00006474836327014591_015_00000602860481210279_117_00016609163665609716_017_00017185144451381926_116_00014446128454091887_116_00003338886116348349_015_00000816496580927726_0,
  016_00006474836327014591_016_00005354595956047504_116_00005844430241516816_117_00004884517850680491_116_00014131914830442511_016_00029950108064592316_115_00001224744871391589_0,
  016_00005974875990738095_016_00005354595956047504_116_00008187198011492087_015_00001265302894934183_115_00001334638077131907_116_00003338886116348349_015_00000816496580927726_0,
  016_00006474836327014591_016_00005354595956047504_117_00016609163665609716_018_00011344809589729025_116_00013032167147669695_116_00003338886116348349_115_00001224744871391589_0,
  016_00005974875990738095_016_00004680587099991834_016_00023607507438172326_116_00017542281745752621_115_00001256084671219563_116_00003338886116348349_115_00001224744871391589_0,
  016_00006474836327014591_016_00004680587099991834_118_00015485137157686792_117_00006890850787231645_116_00012089526276721567_116_00003338886116348349_015_00000816496580927726_0,
  016_00006474836327014591_016_00005354595956047504_116_00008800780046485611_015_00000793814654844668_115_00001177531265307219_116_00003338886116348349_015_00000816496580927726_0,
  016_00005974875990738095_016_00004680587099991834_016_00011614767663298906_115_00001272708269802992_116_00011461099029422814_016_00029950108064592316_115_00001224744871391589_0,
  016_00005974875990738095_017_00040065782439365477_015_00000731969341834424_116_00010018533233685898_116_00010675564970299374_116_00003338886116348349_015_00000816496580927726_0,
  016_00006474836327014591_017_00040065782439365477_116_00004896167096526824_016_00007536879961136456_116_00010361351346649998_116_00003338886116348349_015_00000816496580927726_0,
  016_00005974875990738095_016_00004680587099991834_014_00000229939254031788_116_00018746081507683297_116_00010047137723000623_116_00003338886116348349_015_00000816496580927726_0,
  016_00006474836327014591_016_00004680587099991834_016_00015630940983256516_116_00014532782340925934_116_00009732924099351247_116_00003338886116348349_115_00001224744871391589_0,
  016_00006474836327014591_016_00005354595956047504_116_00009302801711480313_016_00014258095298582731_116_00009261603663877183_116_00003338886116348349_115_00001224744871391589_0,
  016_00006474836327014591_016_00005354595956047504_017_00011838730684090021_117_00014916182533436123_116_00008790283228403118_116_00003338886116348349_015_00000816496580927726_0,
  016_00006474836327014591_016_00005354595956047504_117_00024976191415521404_116_00004701750951825417_116_00008476069604753742_116_00003338886116348349_115_00001224744871391589_0,
  016_00006474836327014591_016_00005354595956047504_117_00004337522965739242_016_00013455562123962277_116_00008004749169279678_116_00003338886116348349_015_00000816496580927726_0,
  016_00006474836327014591_016_00005354595956047504_117_00049519472815262355_016_00006934980080171117_116_00007690535545630302_116_00003338886116348349_015_00000816496580927726_0,
  016_00006474836327014591_016_00004680587099991834_116_00008242978196491499_015_00001255271230251427_116_00007376321921980926_116_00003338886116348349_115_00001224744871391589_0,
  016_00005974875990738095_017_00040065782439365477_116_00008354538566490322_016_00005329913730930215_116_00006905001486506862_116_00003338886116348349_015_00000816496580927726_0,
  016_00005974875990738095_017_00040065782439365477_116_00007238934866502097_016_00010947645953273368_116_00006590787862857486_116_00003338886116348349_015_00000816496580927726_0,
  016_00005474915654461884_017_00040065782439365477_116_00008410318751489733_015_00001857171111216765_115_00000627657423920811_016_00029950108064592316_115_00001224744871391589_0,
  016_00005474915654461884_017_00040065782439365477_116_00007183154681502685_016_00003925480675344427_115_00000549104018008467_116_00003338886116348349_115_00001224744871391589_0,
  016_00005474915654461884_017_00033325693878808776_015_00000598096897835837_116_00009316316705893005_116_00005019719744610606_116_00003338886116348349_115_00001224744871391589_0,
  016_00005474915654461884_016_00004680587099991834_016_00037943014983021017_115_00002336064726175089_117_00045483993091365416_116_00003338886116348349_115_00001224744871391589_0,
  016_00005974875990738095_016_00004680587099991834_017_00006818514034143008_017_00012169312110004112_117_00040770788736624775_116_00003338886116348349_015_00000816496580927726_0,
  016_00005974875990738095_017_00040065782439365477_016_00015184699503261225_116_00016037532043339278_117_00037628652500131016_116_00003338886116348349_015_00000816496580927726_0,
  016_00006474836327014591_016_00004680587099991834_016_00003861321948380742_116_00008614100178100111_117_00034486516263637257_116_00003338886116348349_015_00000816496580927726_0,
  016_00006474836327014591_016_00005354595956047504_116_00006179111351513282_016_00015261261766858294_115_00000313443800271435_116_00003338886116348349_015_00000816496580927726_0,
  016_00006974796663290803_016_00005354595956047504_116_00003445882286542132_016_00010446062719135587_117_00028202243790649734_116_00003338886116348349_015_00000816496580927726_0,
  016_00006474836327014591_016_00004680587099991834_116_00013318975031437923_016_00018371077818512536_117_00025060107554155975_116_00003338886116348349_115_00001224744871391589_0,
  016_00005974875990738095_016_00004680587099991834_017_00042517832433766206_116_00005103017539135641_117_00020346903199415334_116_00003338886116348349_115_00001224744871391589_0,
  016_00005974875990738095_016_00004680587099991834_016_00007654374528340707_116_00007610933709824549_117_00015633698844674693_116_00003338886116348349_015_00000816496580927726_0,
  016_00005474915654461884_016_00004680587099991834_015_00006120335212777551_116_00027874896368990925_117_00012491562608180934_116_00003338886116348349_115_00001224744871391589_1]

/-- lr/data.csv 6802-6901 -/
def dataCsv68 : List ℕ := [
  016_00005474915654461884_017_00040065782439365477_115_00001276117318144381_016_00008840996369894685_117_00007778358253440293_116_00003338886116348349_115_00001224744871391589_0,
  016_00005474915654461884_016_00004680587099991834_115_00001142244874145794_016_00008239096488929353_117_00003065153898699653_116_00003338886116348349_015_00000816496580927726_0,
  016_00005474915654461884_016_00004680587099991834_016_00004586464353373088_116_00009015366765410335_019_00007698233779410749_116_00003338886116348349_115_00001224744871391589_0,
  016_00005474915654461884_016_00004680587099991834_116_00009581702636477369_016_00003423897441206646_017_00004790186692534748_116_00003338886116348349_115_00001224744871391589_0,
  017_00049749553181853884_017_00040065782439365477_016_00002745718248392517_116_00006306817301066312_017_00009503391047275388_116_00003338886116348349_015_00000816496580927726_0,
  017_00049749553181853884_016_00004680587099991834_117_00023302785865539066_117_00023944680747916175_017_00012645527283769148_116_00003338886116348349_115_00001224744871391589_0,
  016_00005474915654461884_016_00005354595956047504_016_00003861321948380742_116_00007109350475686768_016_00001735873163850979_116_00003338886116348349_015_00000816496580927726_0,
  017_00049749553181853884_016_00005354595956047504_017_00005702910334154783_017_00014175645046555194_016_00002050086787500355_116_00003338886116348349_015_00000816496580927726_0,
  017_00049749553181853884_016_00004680587099991834_116_00008242978196491499_016_00005028963790447548_016_00002364300411149731_116_00003338886116348349_015_00000816496580927726_0,
  017_00044749949819088924_016_00005354595956047504_116_00002720739881549785_116_00001892884840653836_016_00002678514034799107_116_00003338886116348349_015_00000816496580927726_0,
  017_00049749553181853884_016_00004680587099991834_015_00001049916396331068_116_00005504284126445864_016_00002992727658448483_116_00003338886116348349_015_00000816496580927726_0,
  017_00044749949819088924_017_00040065782439365477_117_00019398172915580278_016_00006433396846033335_016_00003306941282097859_116_00003338886116348349_015_00000816496580927726_0,
  017_00044749949819088924_017_00040065782439365477_115_00001052996578146736_016_00013856828711272502_017_00036211549057472353_116_00003338886116348349_015_00000816496580927726_0,
  017_00044749949819088924_016_00004680587099991834_116_00006625352831508573_016_00003022630853896422_016_00003935368529396611_116_00003338886116348349_115_00001224744871391589_0,
  017_00039750346456326807_017_00040065782439365477_116_00004115244506535067_016_00004126113968999543_017_00044066889648706753_016_00029950108064592316_115_00001224744871391589_0,
  017_00044749949819088924_016_00004680587099991834_116_00006234891536512694_016_00004126113968999543_016_00005192223023994115_116_00003338886116348349_015_00000816496580927726_0,
  017_00044749949819088924_016_00004680587099991834_116_00003445882286542132_016_00003223264147551537_016_00005506436647643491_116_00003338886116348349_015_00000816496580927726_0,
  017_00049749553181853884_016_00004680587099991834_117_00025533993265515514_016_00008138779842101795_016_00005820650271292868_116_00003338886116348349_115_00001224744871391589_0,
  017_00049749553181853884_016_00004680587099991834_016_00006594551013351894_116_00010118849880513456_016_00006291970706766932_116_00003338886116348349_115_00001224744871391589_0,
  017_00044749949819088924_016_00004680587099991834_116_00010027944116472658_016_00006032130258723112_016_00006763291142240996_116_00003338886116348349_015_00000816496580927726_0,
  017_00039750346456326807_017_00040065782439365477_017_00006818514034143008_116_00005504284126445864_016_00007077504765890371_116_00003338886116348349_015_00000816496580927726_0,
  017_00039750346456326807_017_00040065782439365477_018_00034717029341783334_117_00024947847216191754_016_00007391718389539748_116_00003338886116348349_115_00001224744871391589_0,
  017_00044749949819088924_017_00040065782439365477_016_00009495120633321278_115_00001082106640830635_016_00007863038825013812_116_00003338886116348349_115_00001224744871391589_0,
  017_00044749949819088924_016_00004680587099991834_116_00015103940951419084_016_00016364744881961408_016_00008334359260487876_116_00003338886116348349_115_00001224744871391589_0,
  017_00044749949819088924_016_00004680587099991834_016_00011224306368303028_116_00014733415634581044_015_00000880567969596194_116_00003338886116348349_015_00000816496580927726_0,
  017_00049749553181853884_015_00000602860481210279_016_00016132962648251217_116_00014934048928236157_016_00009119893319611315_116_00003338886116348349_015_00000816496580927726_0,
  017_00049749553181853884_015_00000602860481210279_015_00001579828153825475_116_00018445131567200628_016_00009434106943260692_116_00003338886116348349_015_00000816496580927726_0,
  017_00049749553181853884_015_00000602860481210279_117_00013262352565645041_017_00018188310919657433_016_00009748320566910068_116_00003338886116348349_115_00001224744871391589_0,
  017_00049749553181853884_015_00000602860481210279_116_00008187198011492087_016_00012953978889824496_016_00010219641002384132_116_00003338886116348349_015_00000816496580927726_0,
  017_00044749949819088924_015_00000602860481210279_117_00036132228415403655_117_00043004843645151863_016_00010533854626033508_016_00029950108064592316_115_00001224744871391589_0,
  017_00049749553181853884_015_00000602860481210279_116_00010027944116472658_016_00013455562123962277_016_00011319388685156948_116_00003338886116348349_115_00001224744871391589_0,
  016_00005474915654461884_015_00000670261366815846_017_00014627739934060582_016_00012352079008859156_015_00001179070912063101_116_00003338886116348349_015_00000816496580927726_0,
  016_00005474915654461884_015_00000737662252421413_116_00008633439491487378_015_00000252104761975864_016_00012104922744280389_116_00003338886116348349_115_00001224744871391589_0,
  016_00005474915654461884_015_00000737662252421413_116_00008466098936489144_015_00001315461218347961_016_00012576243179754452_116_00003338886116348349_015_00000816496580927726_0,
  016_00005474915654461884_015_00000670261366815846_116_00008968120601483845_016_00011148279246928485_016_00012890456803403827_116_00003338886116348349_015_00000816496580927726_0,
  017_00049749553181853884_015_00000602860481210279_016_00015073139133262403_116_00014332149047270821_016_00013204670427053204_116_00003338886116348349_015_00000816496580927726_0,
  016_00005474915654461884_015_00000670261366815846_116_00011143547816460884_016_00012853662242996937_015_00001351888405070258_016_00029950108064592316_115_00001224744871391589_0,
  017_00049749553181853884_015_00000670261366815846_116_00006458012276510339_117_00013913016065160544_015_00001430441810982602_116_00003338886116348349_115_00001224744871391589_0,
  016_00005474915654461884_015_00000737662252421413_017_00017416749184031147_016_00001618197798310635_016_00014775738545300083_116_00003338886116348349_015_00000816496580927726_0,
  016_00005974875990738095_016_00008050631380269416_017_00010723126984101795_116_00005905550713756088_015_00001508995216894946_116_00003338886116348349_015_00000816496580927726_0,
  016_00005474915654461884_015_00000737662252421413_015_00001451533728326829_116_00018344814920373074_016_00015404165792598836_116_00003338886116348349_015_00000816496580927726_0,
  016_00005474915654461884_016_00008050631380269416_017_00029130588033907506_116_00005002700892308083_016_00015718379416248212_116_00003338886116348349_115_00001224744871391589_0,
  016_00005974875990738095_016_00008050631380269416_016_00005367386943364846_116_00010419799820996123_016_00016189699851722277_116_00003338886116348349_015_00000816496580927726_0,
  016_00006474836327014591_016_00008724640236325086_117_00016609163665609716_015_00000252104761975864_016_00016503913475371652_116_00003338886116348349_015_00000816496580927726_0,
  016_00006474836327014591_016_00009398649092380373_015_00001669076449824533_116_00016840065217959728_016_00016818127099021027_116_00003338886116348349_115_00001224744871391589_0,
  016_00006474836327014591_016_00010072657948436043_016_00006092529348357192_116_00007610933709824549_116_00016959837443286896_116_00003338886116348349_115_00001224744871391589_0,
  016_00005974875990738095_016_00010072657948436043_117_00022744984015544953_016_00009543212897687582_115_00001648851700781283_116_00003338886116348349_115_00001224744871391589_0,
  016_00005974875990738095_016_00009398649092380373_015_00001217256951329302_116_00012024866170237025_116_00016017196572338768_116_00003338886116348349_015_00000816496580927726_0,
  016_00005474915654461884_016_00008724640236325086_116_00008354538566490322_016_00013355245477134718_115_00001570298294868939_116_00003338886116348349_115_00001224744871391589_0,
  016_00005474915654461884_016_00008724640236325086_117_00022744984015544953_117_00023944680747916175_116_00015231662513215327_116_00003338886116348349_015_00000816496580927726_0,
  017_00049749553181853884_016_00008050631380269416_117_00009915541465680366_117_00042001677176876356_115_00001491744888956595_116_00003338886116348349_115_00001224744871391589_0,
  017_00049749553181853884_016_00008050631380269416_116_00008075637641493265_017_00013172478578279617_116_00014446128454091887_116_00003338886116348349_115_00001224744871391589_0,
  017_00049749553181853884_016_00008050631380269416_017_00035266408383842746_116_00007309983769341876_116_00013974808018617824_016_00029950108064592316_115_00001224744871391589_0,
  017_00044749949819088924_015_00000737662252421413_116_00006792693386506806_017_00007153479768626296_116_00013189273959494383_116_00003338886116348349_015_00000816496580927726_0,
  017_00049749553181853884_016_00008050631380269416_117_00015493559965621492_016_00002922314207068864_116_00012875060335845006_116_00003338886116348349_015_00000816496580927726_0,
  016_00005474915654461884_016_00008724640236325086_016_00006427210458353659_116_00009316316705893005_115_00001256084671219563_116_00003338886116348349_115_00001224744871391589_0,
  016_00005474915654461884_016_00008724640236325086_016_00016579204128246507_116_00017241331805269953_116_00012089526276721567_116_00003338886116348349_115_00001224744871391589_0,
  016_00005474915654461884_016_00008724640236325086_014_00000046422445383725_117_00044008010113427437_116_00011618205841247502_116_00003338886116348349_015_00000816496580927726_0,
  017_00049749553181853884_016_00008050631380269416_116_00004003684136536244_016_00005430230377757772_116_00011303992217598127_116_00003338886116348349_015_00000816496580927726_0,
  016_00005474915654461884_016_00008724640236325086_016_00020651157633203527_116_00017341648452097511_116_00010989778593948751_116_00003338886116348349_115_00001224744871391589_0,
  016_00005474915654461884_016_00008050631380269416_016_00020706937818202937_116_00019849564622786418_116_00010518458158474686_116_00003338886116348349_015_00000816496580927726_0,
  016_00005474915654461884_016_00008724640236325086_015_00003727365276302808_116_00023460963908578445_115_00001020424453482531_016_00029950108064592316_115_00001224744871391589_0,
  016_00005474915654461884_016_00008050631380269416_116_00008633439491487378_016_00009442896250860024_115_00000941871047570187_116_00003338886116348349_115_00001224744871391589_0,
  016_00005474915654461884_016_00008724640236325086_016_00005088486018367789_116_00010520116467823681_116_00008947390040227806_116_00003338886116348349_015_00000816496580927726_0,
  016_00005474915654461884_016_00008724640236325086_116_00015103940951419084_016_00020076460814580996_115_00000863317641657843_116_00003338886116348349_015_00000816496580927726_0,
  016_00005474915654461884_016_00009398649092380373_117_00004337522965739242_117_00012909849596884967_116_00008318962792929054_116_00003338886116348349_015_00000816496580927726_0,
  017_00049749553181853884_016_00008724640236325086_115_00000472882654152859_017_00015178811514830773_116_00008004749169279678_116_00003338886116348349_115_00001224744871391589_0,
  017_00049749553181853884_016_00008724640236325086_115_00001097620726146265_016_00010947645953273368_116_00007533428733805614_116_00003338886116348349_015_00000816496580927726_0,
  017_00049749553181853884_016_00008050631380269416_116_00009804823376475014_016_00006333080199205777_116_00007219215110156237_116_00003338886116348349_015_00000816496580927726_0,
  017_00049749553181853884_016_00008050631380269416_116_00007071594311503863_017_00021197810324484165_116_00006905001486506862_116_00003338886116348349_015_00000816496580927726_0,
  017_00049749553181853884_016_00008724640236325086_016_00003247739913387218_117_00007894017255507152_116_00006590787862857486_016_00029950108064592316_115_00001224744871391589_0,
  017_00049749553181853884_016_00008724640236325086_115_00001058574596646677_016_00007035296726998674_116_00005805253803734046_116_00003338886116348349_015_00000816496580927726_0,
  017_00049749553181853884_016_00008724640236325086_117_00037247832115391877_116_00004701750951825417_115_00000549104018008467_116_00003338886116348349_015_00000816496580927726_0,
  017_00049749553181853884_016_00009398649092380373_115_00000339010210154272_117_00004884517850680491_116_00005176826556435293_116_00003338886116348349_015_00000816496580927726_0,
  017_00044749949819088924_016_00008724640236325086_115_00001359787595643498_016_00018972977699477873_117_00048626129327859174_016_00029950108064592316_115_00001224744871391589_0,
  017_00039750346456326807_016_00008050631380269416_016_00002968838988390162_116_00007109350475686768_117_00040770788736624775_116_00003338886116348349_115_00001224744871391589_0,
  017_00039750346456326807_016_00008050631380269416_115_00000606755098151446_015_00001445872859223784_117_00036057584381884134_116_00003338886116348349_015_00000816496580927726_0,
  017_00039750346456326807_016_00008050631380269416_116_00002832300251548608_018_00011344809589729025_117_00032915448145390375_116_00003338886116348349_115_00001224744871391589_0,
  017_00044749949819088924_016_00008050631380269416_117_00011588947015662704_116_00005002700892308083_117_00028202243790649734_016_00029950108064592316_115_00001224744871391589_0,
  017_00039750346456326807_016_00008050631380269416_015_00003894705831301042_115_00002305969732126822_117_00020346903199415334_016_00029950108064592316_115_00001224744871391589_0,
  017_00044749949819088924_016_00008724640236325086_016_00014626897653267112_116_00015435632162373938_117_00012491562608180934_116_00003338886116348349_115_00001224744871391589_0,
  017_00049749553181853884_016_00009398649092380373_017_00019090154734013484_117_00023944680747916175_117_00007778358253440293_116_00003338886116348349_015_00000816496580927726_0,
  017_00044749949819088924_016_00009398649092380373_016_00029799107973106973_116_00018645764860855742_118_00046362220169465326_116_00003338886116348349_015_00000816496580927726_0,
  017_00044749949819088924_016_00008724640236325086_016_00023105485773177623_115_00002065209779740687_118_00014940857804527726_116_00003338886116348349_015_00000816496580927726_0,
  017_00039750346456326807_016_00008050631380269416_116_00002609179511550963_117_00009900350192058306_018_00016480504560409875_116_00003338886116348349_015_00000816496580927726_0,
  017_00039750346456326807_016_00008050631380269416_116_00007908297086495032_016_00008740679723067134_017_00004790186692534748_116_00003338886116348349_015_00000816496580927726_0,
  017_00039750346456326807_016_00008724640236325086_116_00004115244506535067_016_00003223264147551537_017_00007932322929028508_116_00003338886116348349_115_00001224744871391589_0,
  017_00039750346456326807_016_00008724640236325086_016_00013567074138278299_116_00013128349285340146_017_00012645527283769148_116_00003338886116348349_015_00000816496580927726_0,
  017_00044749949819088924_016_00009398649092380373_116_00005844430241516816_016_00005430230377757772_016_00001578766352026291_116_00003338886116348349_115_00001224744871391589_0,
  017_00044749949819088924_016_00009398649092380373_116_00008466098936489144_016_00002721680913413756_016_00002050086787500355_016_00029950108064592316_115_00001224744871391589_0,
  017_00044749949819088924_016_00009398649092380373_117_00003779721115745129_017_00015178811514830773_016_00002835620846623795_116_00003338886116348349_115_00001224744871391589_0,
  017_00044749949819088924_016_00010072657948436043_117_00018840371065586167_017_00011166145641728534_016_00003306941282097859_116_00003338886116348349_015_00000816496580927726_0,
  017_00049749553181853884_016_00010746666804491714_116_00005509749131520348_016_00003323580794379088_017_00036211549057472353_116_00003338886116348349_015_00000816496580927726_0,
  017_00049749553181853884_016_00010746666804491714_117_00038363435815380104_016_00003423897441206646_016_00003935368529396611_116_00003338886116348349_015_00000816496580927726_0,
  016_00005474915654461884_013_00000011420675660547_116_00007294715051501508_016_00006333080199205777_016_00004249582153045987_116_00003338886116348349_015_00000816496580927726_0,
  017_00049749553181853884_016_00010746666804491714_116_00010139504486471482_016_00005630863671412888_016_00004563795776695363_116_00003338886116348349_115_00001224744871391589_0,
  017_00049749553181853884_016_00010746666804491714_115_00000472882654152859_019_00013131449069732513_016_00005035116212169427_116_00003338886116348349_115_00001224744871391589_0,
  017_00049749553181853884_016_00010746666804491714_116_00010418405411468539_016_00023587543453545465_016_00005506436647643491_116_00003338886116348349_015_00000816496580927726_0,
  017_00049749553181853884_016_00010746666804491714_116_00005063507651525058_016_00003925480675344427_016_00005820650271292868_116_00003338886116348349_115_00001224744871391589_0,
  017_00044749949819088924_016_00010746666804491714_016_00007375473603343651_116_00006507450594721428_016_00006291970706766932_116_00003338886116348349_015_00000816496580927726_0]

/-- lr/data.csv 6902-7001 -/
def dataCsv69 : List ℕ := [
  017_00049749553181853884_013_00000011420675660547_015_00000731969341834424_116_00008714416824927665_016_00006606184330416307_116_00003338886116348349_015_00000816496580927726_0,
  017_00049749553181853884_013_00000011420675660547_017_00004587306634166558_116_00005504284126445864_016_00006920397954065683_116_00003338886116348349_015_00000816496580927726_0,
  017_00049749553181853884_016_00010746666804491714_117_00043383652465327116_017_00006150313300350718_015_00000723461157771506_116_00003338886116348349_015_00000816496580927726_0,
  017_00049749553181853884_016_00010746666804491714_016_00003917102133380153_117_00042001677176876356_016_00007548825201364435_116_00003338886116348349_115_00001224744871391589_0,
  017_00044749949819088924_016_00010072657948436043_016_00009216219708324221_116_00008714416824927665_016_00008020145636838499_116_00003338886116348349_115_00001224744871391589_0,
  017_00049749553181853884_016_00010072657948436043_017_00006260712184148895_116_00005103017539135641_016_00008491466072312563_116_00003338886116348349_115_00001224744871391589_0,
  017_00049749553181853884_016_00010072657948436043_117_00004895324815733354_016_00003925480675344427_016_00008962786507786628_116_00003338886116348349_115_00001224744871391589_0,
  017_00044749949819088924_016_00008724640236325086_116_00005007727466525647_018_00021376474272484798_016_00009434106943260692_116_00003338886116348349_015_00000816496580927726_0,
  017_00044749949819088924_016_00008724640236325086_017_00041402228733777985_116_00007309983769341876_016_00009748320566910068_116_00003338886116348349_015_00000816496580927726_0,
  017_00039750346456326807_016_00008050631380269416_116_00009079680971482668_016_00008138779842101795_016_00010062534190559445_116_00003338886116348349_015_00000816496580927726_0,
  017_00039750346456326807_016_00008050631380269416_116_00005844430241516816_016_00005630863671412888_015_00001037674781420882_116_00003338886116348349_015_00000816496580927726_0,
  017_00039750346456326807_015_00000737662252421413_116_00003278541731543898_017_00011166145641728534_016_00010690961437858195_116_00003338886116348349_015_00000816496580927726_0,
  017_00039750346456326807_016_00008050631380269416_016_00005311606758365435_115_00000811251694396233_016_00011005175061507573_116_00003338886116348349_115_00001224744871391589_0,
  017_00039750346456326807_016_00008050631380269416_117_00032227615465444864_117_00014916182533436123_016_00011476495496981636_116_00003338886116348349_015_00000816496580927726_0,
  017_00044749949819088924_016_00008724640236325086_016_00007208133048345416_115_00001112201634878902_015_00001179070912063101_016_00029950108064592316_115_00001224744871391589_0,
  017_00049749553181853884_016_00009398649092380373_117_00030554209915462527_117_00037989011303774045_016_00012576243179754452_116_00003338886116348349_015_00000816496580927726_0,
  017_00044749949819088924_016_00008724640236325086_017_00035824210233836856_116_00008212833590789884_016_00012890456803403827_116_00003338886116348349_115_00001224744871391589_0,
  017_00049749553181853884_016_00009398649092380373_117_00032227615465444864_117_00024947847216191754_016_00013361777238877892_116_00003338886116348349_015_00000816496580927726_0,
  017_00049749553181853884_016_00010072657948436043_017_00011280928834095907_116_00008212833590789884_016_00013675990862527267_116_00003338886116348349_015_00000816496580927726_0,
  017_00049749553181853884_016_00010072657948436043_116_00005286628391522703_118_00018750184458538297_016_00013990204486176645_116_00003338886116348349_015_00000816496580927726_0,
  016_00005974875990738095_016_00010746666804491714_116_00006458012276510339_016_00008038463195274238_015_00001430441810982602_116_00003338886116348349_115_00001224744871391589_0,
  016_00005474915654461884_016_00010746666804491714_116_00005955990611515638_016_00008138779842101795_016_00014775738545300083_116_00003338886116348349_015_00000816496580927726_0,
  016_00005974875990738095_013_00000011420675660547_116_00004226804876533889_016_00008339413135756903_015_00001508995216894946_116_00003338886116348349_015_00000816496580927726_0,
  016_00005974875990738095_013_00000011420675660547_116_00005900210426516227_016_00009342579604032467_016_00015404165792598836_116_00003338886116348349_015_00000816496580927726_0,
  016_00005974875990738095_016_00010746666804491714_117_00043383652465327116_016_00012953978889824496_016_00015718379416248212_116_00003338886116348349_015_00000816496580927726_1,
  016_00005474915654461884_016_00010746666804491714_116_00015215501321417906_015_00001556221170734096_015_00001603259303989759_116_00003338886116348349_115_00001224744871391589_0,
  016_00005474915654461884_016_00010746666804491714_116_00006792693386506806_016_00013455562123962277_116_00016959837443286896_016_00029950108064592316_115_00001224744871391589_0,
  016_00005474915654461884_016_00010746666804491714_116_00002832300251548608_016_00003423897441206646_116_00016174303384163455_116_00003338886116348349_015_00000816496580927726_0,
  016_00005474915654461884_013_00000011420675660547_016_00015463600428258282_116_00015535948809201496_116_00015860089760514078_116_00003338886116348349_015_00000816496580927726_0,
  017_00049749553181853884_016_00010746666804491714_115_00001326319484643851_015_00001506062847320318_116_00015545876136864702_116_00003338886116348349_115_00001224744871391589_0,
  017_00044749949819088924_016_00010072657948436043_016_00016579204128246507_116_00018244498273545515_115_00001507455570139064_116_00003338886116348349_115_00001224744871391589_0,
  017_00039750346456326807_016_00009398649092380373_117_00009915541465680366_118_00008718519775782523_116_00014603235265916574_116_00003338886116348349_115_00001224744871391589_0,
  017_00039750346456326807_016_00009398649092380373_116_00012091810961450875_015_00002729925938616505_116_00014131914830442511_116_00003338886116348349_015_00000816496580927726_1,
  017_00039750346456326807_016_00009398649092380373_116_00002609179511550963_017_00006150313300350718_116_00013817701206793134_116_00003338886116348349_015_00000816496580927726_0,
  017_00039750346456326807_016_00009398649092380373_118_00015485137157686792_016_00000915981270517738_116_00013503487583143758_116_00003338886116348349_015_00000816496580927726_0,
  016_00003475074309356185_016_00008050631380269416_016_00018921971898221779_116_00015736582102856609_116_00013189273959494383_116_00003338886116348349_015_00000816496580927726_0,
  016_00002975113973079973_015_00000737662252421413_117_00037805633965385993_017_00007153479768626296_116_00012875060335845006_116_00003338886116348349_015_00000816496580927726_0,
  016_00002975113973079973_015_00000737662252421413_116_00004840386911527413_018_00021376474272484798_115_00001256084671219563_016_00029950108064592316_115_00001224744871391589_0,
  016_00003475074309356185_016_00008050631380269416_116_00004840386911527413_016_00004427063909482209_115_00001177531265307219_116_00003338886116348349_015_00000816496580927726_0,
  016_00003475074309356185_016_00008724640236325086_116_00010641526151466183_016_00013054295536652054_116_00011461099029422814_116_00003338886116348349_115_00001224744871391589_0,
  017_00039750346456326807_016_00009398649092380373_116_00004784606726528002_016_00004627697203137324_116_00010989778593948751_016_00029950108064592316_115_00001224744871391589_0,
  017_00039750346456326807_016_00009398649092380373_116_00012426492071447344_016_00017668861290719644_115_00001020424453482531_116_00003338886116348349_015_00000816496580927726_0,
  017_00039750346456326807_016_00009398649092380373_016_00010778064888307737_116_00013128349285340146_116_00009890030911175934_116_00003338886116348349_115_00001224744871391589_0,
  016_00003475074309356185_016_00008724640236325086_117_00009357739615686254_117_00048020675986529676_115_00000941871047570187_116_00003338886116348349_015_00000816496580927726_0,
  016_00003475074309356185_016_00008724640236325086_116_00002888080436548019_118_00018750184458538297_116_00009104496852052494_116_00003338886116348349_115_00001224744871391589_0,
  017_00039750346456326807_016_00009398649092380373_016_00017471687088237087_116_00017843231686235292_115_00000863317641657843_116_00003338886116348349_115_00001224744871391589_0,
  016_00003475074309356185_016_00008050631380269416_117_00029438606215474306_016_00006834663433343559_116_00008161855981104366_116_00003338886116348349_015_00000816496580927726_0,
  016_00003475074309356185_016_00008724640236325086_017_00012954334384078245_117_00028960513089293993_115_00000784764235745499_116_00003338886116348349_115_00001224744871391589_0,
  016_00003475074309356185_016_00008050631380269416_117_00045614859865303564_016_00011449229187411152_116_00007376321921980926_116_00003338886116348349_015_00000816496580927726_0,
  016_00003475074309356185_016_00008050631380269416_016_00012841931733285954_115_00001352961587265037_115_00000706210829833155_116_00003338886116348349_115_00001224744871391589_0,
  016_00003475074309356185_016_00008724640236325086_115_00000919124134148149_015_00001315461218347961_116_00006590787862857486_016_00029950108064592316_115_00001224744871391589_0,
  017_00039750346456326807_016_00008724640236325086_117_00008242135915698029_016_00003524214088034203_116_00005805253803734046_116_00003338886116348349_015_00000816496580927726_0,
  017_00039750346456326807_016_00008724640236325086_117_00022744984015544953_018_00021376474272484798_115_00000549104018008467_116_00003338886116348349_015_00000816496580927726_0,
  017_00039750346456326807_016_00008724640236325086_117_00042825850615333005_017_00014175645046555194_116_00005176826556435293_116_00003338886116348349_015_00000816496580927726_0,
  017_00039750346456326807_016_00008050631380269416_116_00006123331166513871_016_00012352079008859156_117_00048626129327859174_116_00003338886116348349_115_00001224744871391589_0,
  016_00003475074309356185_016_00008050631380269416_116_00007796736716496209_015_00000793814654844668_116_00004391292497311854_116_00003338886116348349_015_00000816496580927726_0,
  017_00039750346456326807_016_00008050631380269416_116_00005844430241516816_117_00008897183723782728_117_00040770788736624775_116_00003338886116348349_115_00001224744871391589_0,
  016_00003475074309356185_015_00000737662252421413_116_00011980250591452053_016_00012251762362031606_117_00036057584381884134_116_00003338886116348349_015_00000816496580927726_0,
  016_00002975113973079973_015_00000670261366815846_017_00013512136234072358_017_00007153479768626296_117_00032915448145390375_116_00003338886116348349_015_00000816496580927726_0,
  016_00002975113973079973_015_00000670261366815846_018_00023560992341901083_115_00000530365083279075_117_00029773311908896616_116_00003338886116348349_015_00000816496580927726_0,
  016_00003475074309356185_015_00000670261366815846_116_00007015814126504452_015_00001205112906837649_117_00026631175672402857_116_00003338886116348349_015_00000816496580927726_0,
  016_00003475074309356185_015_00000670261366815846_116_00008968120601483845_017_00012169312110004112_117_00023489039435909095_116_00003338886116348349_115_00001224744871391589_0,
  016_00003475074309356185_015_00000737662252421413_116_00009247021526480902_016_00009944479484997806_117_00018775835081168454_116_00003338886116348349_115_00001224744871391589_0,
  016_00003475074309356185_015_00000670261366815846_016_00024667330953161137_115_00002015051456326909_117_00014062630726427813_016_00029950108064592316_115_00001224744871391589_0,
  016_00003475074309356185_015_00000670261366815846_116_00015382841876416138_016_00012352079008859156_118_00062072901351934134_116_00003338886116348349_115_00001224744871391589_0,
  016_00003475074309356185_015_00000670261366815846_116_00012649612811444988_016_00012151445715204048_118_00014940857804527726_116_00003338886116348349_015_00000816496580927726_0,
  016_00003475074309356185_015_00000670261366815846_016_00023997968733168205_116_00019347981388648636_018_00016480504560409875_116_00003338886116348349_015_00000816496580927726_0,
  017_00039750346456326807_016_00008050631380269416_116_00009693263006476192_016_00011750179127893825_017_00004790186692534748_116_00003338886116348349_115_00001224744871391589_0,
  017_00044749949819088924_016_00008050631380269416_016_00013957535433274177_116_00014532782340925934_017_00009503391047275388_116_00003338886116348349_015_00000816496580927726_0,
  017_00039750346456326807_015_00000737662252421413_017_00024668173233954607_116_00007911883650307214_017_00012645527283769148_116_00003338886116348349_115_00001224744871391589_0,
  016_00003475074309356185_015_00000670261366815846_116_00005732869871517993_015_00000492864714361999_016_00001735873163850979_116_00003338886116348349_015_00000816496580927726_0,
  016_00003475074309356185_015_00000670261366815846_017_00011280928834095907_017_00028219975602413067_016_00002050086787500355_116_00003338886116348349_115_00001224744871391589_0,
  016_00003475074309356185_015_00000670261366815846_116_00009023900786483257_016_00009944479484997806_016_00002521407222974419_116_00003338886116348349_015_00000816496580927726_0,
  016_00003475074309356185_015_00000670261366815846_117_00042825850615333005_016_00001919147738793301_016_00002835620846623795_116_00003338886116348349_015_00000816496580927726_0,
  016_00003475074309356185_015_00000670261366815846_115_00001231493170144852_016_00008239096488929353_016_00003149834470273171_116_00003338886116348349_015_00000816496580927726_0,
  016_00003475074309356185_015_00000670261366815846_116_00008968120601483845_016_00011649862481066267_016_00003464048093922547_116_00003338886116348349_115_00001224744871391589_0,
  016_00002975113973079973_015_00000602860481210279_116_00010864646891463827_016_00006734346786516008_016_00003935368529396611_116_00003338886116348349_015_00000816496580927726_0,
  016_00003475074309356185_015_00000737662252421413_015_00004675628421292799_115_00002576824678561224_016_00004249582153045987_116_00003338886116348349_015_00000816496580927726_0,
  016_00003475074309356185_015_00000737662252421413_116_00006234891536512694_015_00001034574607230803_016_00004563795776695363_116_00003338886116348349_015_00000816496580927726_0,
  017_00044749949819088924_016_00008050631380269416_116_00010362625226469127_016_00020477727401891217_017_00048780094003447394_116_00003338886116348349_015_00000816496580927726_0,
  017_00039750346456326807_016_00008724640236325086_117_00018840371065586167_016_00005530547024585329_016_00005192223023994115_116_00003338886116348349_015_00000816496580927726_0,
  017_00039750346456326807_016_00008050631380269416_016_00004084442688378387_116_00007510617062996991_016_00005506436647643491_016_00029950108064592316_115_00001224744871391589_0,
  016_00003475074309356185_015_00000737662252421413_116_00005509749131520348_016_00003022630853896422_016_00006291970706766932_116_00003338886116348349_015_00000816496580927726_0,
  016_00003475074309356185_015_00000670261366815846_115_00001142244874145794_016_00013957145358100058_016_00006606184330416307_116_00003338886116348349_115_00001224744871391589_0,
  016_00003475074309356185_015_00000670261366815846_016_00009327780078323045_116_00015034365575063715_016_00007077504765890371_116_00003338886116348349_115_00001224744871391589_0,
  017_00039750346456326807_015_00000737662252421413_016_00008881538598327754_116_00015234998868718825_016_00007548825201364435_016_00029950108064592316_115_00001224744871391589_0,
  016_00003475074309356185_015_00000737662252421413_016_00008323736748333642_116_00009316316705893005_016_00008334359260487876_116_00003338886116348349_015_00000816496580927726_0,
  016_00003475074309356185_015_00000737662252421413_015_00005010309531289267_115_00002626983001975002_016_00008648572884137251_116_00003338886116348349_015_00000816496580927726_0,
  016_00003475074309356185_015_00000737662252421413_115_00000339010210154272_016_00006834663433343559_016_00008962786507786628_116_00003338886116348349_015_00000816496580927726_0,
  016_00003475074309356185_015_00000737662252421413_016_00003861321948380742_116_00004701750951825417_016_00009277000131436004_116_00003338886116348349_115_00001224744871391589_0,
  016_00003475074309356185_015_00000737662252421413_015_00005239008289786853_115_00002667109660706025_016_00009748320566910068_116_00003338886116348349_015_00000816496580927726_1,
  017_00039750346456326807_015_00000737662252421413_117_00016609163665609716_116_00006607767241548985_016_00010062534190559445_116_00003338886116348349_015_00000816496580927726_0,
  016_00003475074309356185_015_00000670261366815846_016_00003191959728387807_117_00030966846025845146_015_00001037674781420882_116_00003338886116348349_015_00000816496580927726_0,
  016_00003475074309356185_015_00000670261366815846_016_00011224306368303028_116_00014432465694098375_016_00010690961437858195_116_00003338886116348349_115_00001224744871391589_0,
  016_00002975113973079973_016_00005354595956047504_116_00009135461156482079_016_00013254928830307169_015_00001116228187333226_116_00003338886116348349_015_00000816496580927726_0,
  016_00002975113973079973_016_00004680587099991834_016_00009271999893323634_116_00008814733471755224_016_00011476495496981636_116_00003338886116348349_115_00001224744871391589_0,
  016_00002475153636803477_017_00040065782439365477_016_00004586464353373088_116_00008012200297134773_014_00000119478159324557_116_00003338886116348349_115_00001224744871391589_0,
  016_00002975113973079973_016_00004680587099991834_017_00015185541784054696_117_00017925681938262783_016_00012419136367929764_116_00003338886116348349_115_00001224744871391589_0,
  016_00002975113973079973_016_00004680587099991834_116_00008410318751489733_016_00002922314207068864_016_00012890456803403827_116_00003338886116348349_115_00001224744871391589_0,
  016_00002975113973079973_016_00004680587099991834_117_00045614859865303564_117_00032973178962396227_016_00013361777238877892_116_00003338886116348349_115_00001224744871391589_0]

/-- lr/data.csv 7002-7101 -/
def dataCsv70 : List ℕ := [
  016_00002975113973079973_017_00040065782439365477_116_00004226804876533889_016_00005530547024585329_016_00013833097674351955_116_00003338886116348349_115_00001224744871391589_0,
  016_00002475153636803477_017_00033325693878808776_017_00014069938084066472_117_00017925681938262783_015_00001430441810982602_116_00003338886116348349_015_00000816496580927726_0,
  016_00002475153636803477_017_00040065782439365477_116_00007127374496503274_015_00000723593002065379_016_00014618631733475396_016_00029950108064592316_115_00001224744871391589_0,
  016_00002475153636803477_017_00040065782439365477_019_00068269368420777075_016_00006734346786516008_016_00015404165792598836_116_00003338886116348349_015_00000816496580927726_0,
  016_00002475153636803477_017_00040065782439365477_015_00002293814521817939_116_00019749247975958861_016_00015718379416248212_116_00003338886116348349_015_00000816496580927726_0,
  016_00002975113973079973_016_00004680587099991834_116_00011143547816460884_016_00012953978889824496_116_00016959837443286896_116_00003338886116348349_115_00001224744871391589_0,
  016_00002975113973079973_017_00040065782439365477_116_00006681133016507984_117_00003881351382404913_115_00001648851700781283_016_00029950108064592316_115_00001224744871391589_0,
  016_00002475153636803477_017_00040065782439365477_117_00022187182165550842_016_00005229597084102664_115_00001570298294868939_116_00003338886116348349_015_00000816496580927726_0,
  016_00002475153636803477_017_00040065782439365477_116_00009525922451477957_015_00000964352954451514_116_00015388769325040015_116_00003338886116348349_015_00000816496580927726_0,
  016_00002475153636803477_017_00033325693878808776_118_00015485137157686792_117_00037989011303774045_115_00001507455570139064_116_00003338886116348349_015_00000816496580927726_0,
  016_00002475153636803477_017_00033325693878808776_117_00038921237665374214_016_00002922314207068864_116_00014760342077741262_116_00003338886116348349_115_00001224744871391589_0,
  016_00002475153636803477_017_00033325693878808776_015_00006103601157277727_116_00027874896368990925_114_00000142890216422672_116_00003338886116348349_015_00000816496580927726_1,
  017_00019751933005269812_016_00002658560531825208_116_00013430535401436745_016_00021480893870166784_116_00013974808018617824_116_00003338886116348349_015_00000816496580927726_0,
  017_00019751933005269812_016_00002658560531825208_018_00029139010841842207_116_00003698584483549854_116_00013660594394968446_116_00003338886116348349_115_00001224744871391589_0,
  016_00002475153636803477_017_00033325693878808776_116_00007573615976498564_016_00007737513254791571_116_00013189273959494383_016_00029950108064592316_115_00001224744871391589_0,
  016_00002475153636803477_017_00033325693878808776_116_00004840386911527413_016_00002922314207068864_116_00012403739900370943_116_00003338886116348349_015_00000816496580927726_0,
  016_00002975113973079973_017_00033325693878808776_117_00016609163665609716_015_00000312294750072398_116_00012089526276721567_116_00003338886116348349_015_00000816496580927726_0,
  016_00003475074309356185_017_00040065782439365477_117_00036132228415403655_117_00029963679557569567_115_00001177531265307219_116_00003338886116348349_115_00001224744871391589_0,
  016_00003475074309356185_016_00004680587099991834_116_00009023900786483257_016_00006734346786516008_116_00011303992217598127_116_00003338886116348349_115_00001224744871391589_0,
  017_00039750346456326807_016_00005354595956047504_016_00011280086553302437_116_00012927715991685031_116_00010832671782124061_116_00003338886116348349_015_00000816496580927726_0,
  017_00039750346456326807_016_00005354595956047504_117_00043941454315321227_016_00013856828711272502_116_00010518458158474686_116_00003338886116348349_015_00000816496580927726_0,
  016_00003475074309356185_017_00040065782439365477_014_00000051442662033672_116_00007410300416169433_115_00001020424453482531_016_00029950108064592316_115_00001224744871391589_0,
  016_00003475074309356185_017_00033325693878808776_017_00012396532534084133_116_00006808400535204094_115_00000941871047570187_116_00003338886116348349_015_00000816496580927726_0,
  016_00003475074309356185_017_00040065782439365477_016_00001853235288401937_117_00014916182533436123_116_00009104496852052494_116_00003338886116348349_115_00001224744871391589_0,
  016_00002975113973079973_017_00040065782439365477_015_00003281123796307518_116_00021354314325199764_115_00000863317641657843_116_00003338886116348349_015_00000816496580927726_0,
  016_00002975113973079973_017_00040065782439365477_116_00005063507651525058_016_00004728013849964882_116_00008318962792929054_016_00029950108064592316_115_00001224744871391589_0,
  016_00002975113973079973_016_00004680587099991834_018_00023560992341901083_117_00003881351382404913_116_00007533428733805614_116_00003338886116348349_015_00000816496580927726_0,
  016_00002975113973079973_017_00040065782439365477_116_00001716696551560383_116_00005203334185963199_116_00007219215110156237_116_00003338886116348349_015_00000816496580927726_0,
  016_00002975113973079973_017_00040065782439365477_116_00007573615976498564_016_00010446062719135587_116_00006905001486506862_116_00003338886116348349_115_00001224744871391589_0,
  016_00002975113973079973_017_00040065782439365477_115_00000472882654152859_118_00028781849141293357_116_00006433681051032798_116_00003338886116348349_015_00000816496580927726_0,
  016_00003475074309356185_016_00005354595956047504_016_00013009272288284186_115_00001272708269802992_116_00006119467427383422_116_00003338886116348349_015_00000816496580927726_0,
  016_00003475074309356185_016_00005354595956047504_116_00003334321916543309_016_00009141946310377358_116_00005805253803734046_116_00003338886116348349_015_00000816496580927726_0,
  016_00003475074309356185_015_00000602860481210279_016_00010276043223313036_116_00009015366765410335_115_00000549104018008467_116_00003338886116348349_015_00000816496580927726_0,
  016_00003475074309356185_016_00005354595956047504_117_00038921237665374214_016_00006433396846033335_116_00005176826556435293_116_00003338886116348349_115_00001224744871391589_0,
  016_00002975113973079973_017_00040065782439365477_016_00016244523018250039_115_00001383056581313304_115_00000470550612096123_016_00029950108064592316_115_00001224744871391589_0,
  016_00002975113973079973_017_00040065782439365477_117_00023302785865539066_117_00017925681938262783_115_00000391997206183779_116_00003338886116348349_015_00000816496580927726_0,
  016_00003475074309356185_017_00040065782439365477_019_00068269368420777075_016_00012753345596169388_117_00036057584381884134_116_00003338886116348349_015_00000816496580927726_0,
  016_00002975113973079973_017_00040065782439365477_117_00013820154415639155_117_00004884517850680491_117_00032915448145390375_116_00003338886116348349_015_00000816496580927726_0,
  016_00003475074309356185_017_00040065782439365477_016_00006427210458353659_116_00005805234066928531_117_00029773311908896616_116_00003338886116348349_015_00000816496580927726_0,
  016_00002975113973079973_017_00033325693878808776_117_00011031145165668592_117_00029963679557569567_117_00026631175672402857_016_00029950108064592316_115_00001224744871391589_0,
  016_00003475074309356185_017_00040065782439365477_016_00010108702668314802_116_00009717583293203229_117_00018775835081168454_116_00003338886116348349_015_00000816496580927726_0,
  016_00002975113973079973_017_00033325693878808776_117_00038363435815380104_117_00022941514279640599_117_00015633698844674693_116_00003338886116348349_015_00000816496580927726_0,
  016_00002975113973079973_017_00033325693878808776_016_00005757848238360724_116_00010118849880513456_117_00012491562608180934_116_00003338886116348349_015_00000816496580927726_0,
  016_00003475074309356185_017_00040065782439365477_016_00026061835578146417_116_00020953047737889534_117_00009349426371687174_116_00003338886116348349_115_00001224744871391589_0,
  016_00003475074309356185_017_00040065782439365477_117_00018840371065586167_117_00044008010113427437_118_00046362220169465326_116_00003338886116348349_115_00001224744871391589_0,
  016_00003475074309356185_017_00040065782439365477_016_00003917102133380153_116_00012426132757547248_019_00007698233779410749_116_00003338886116348349_115_00001224744871391589_0,
  016_00003475074309356185_017_00033325693878808776_015_00001808526912323061_116_00017843231686235292_017_00004790186692534748_116_00003338886116348349_115_00001224744871391589_0,
  016_00002975113973079973_016_00002658560531825208_116_00007685176346497387_016_00002621364266586198_017_00009503391047275388_116_00003338886116348349_015_00000816496580927726_0,
  016_00002975113973079973_016_00002658560531825208_015_00002611761576314583_115_00002025083121009664_017_00012645527283769148_116_00003338886116348349_015_00000816496580927726_0,
  016_00002975113973079973_016_00002658560531825208_117_00024976191415521404_016_00007336246667481341_016_00001578766352026291_116_00003338886116348349_015_00000816496580927726_0,
  016_00002975113973079973_016_00002658560531825208_117_00045614859865303564_016_00007737513254791571_017_00018929799756756668_116_00003338886116348349_015_00000816496580927726_0,
  016_00002975113973079973_016_00002658560531825208_016_00000960752328411357_117_00022941514279640599_016_00002207193599325043_116_00003338886116348349_015_00000816496580927726_0,
  016_00002975113973079973_016_00002658560531825208_117_00016051361815615603_017_00028219975602413067_016_00002521407222974419_016_00029950108064592316_115_00001224744871391589_0,
  016_00003475074309356185_017_00033325693878808776_016_00001574334363404881_117_00012909849596884967_016_00003306941282097859_016_00029950108064592316_115_00001224744871391589_0,
  016_00003475074309356185_017_00033325693878808776_116_00003501662471541543_015_00000312294750072398_016_00004092475341221299_016_00029950108064592316_115_00001224744871391589_0,
  017_00039750346456326807_017_00040065782439365477_016_00006929232123348361_116_00009416633352720559_017_00048780094003447394_116_00003338886116348349_015_00000816496580927726_0,
  017_00039750346456326807_017_00033325693878808776_116_00007238934866502097_016_00010646696012790704_016_00005192223023994115_116_00003338886116348349_115_00001224744871391589_0,
  017_00039750346456326807_017_00040065782439365477_016_00007096572678346594_117_00037989011303774045_016_00005663543459468179_116_00003338886116348349_015_00000816496580927726_0,
  016_00003475074309356185_017_00040065782439365477_117_00010473343315674478_016_00005931813611895553_016_00005977757083117555_116_00003338886116348349_015_00000816496580927726_0,
  016_00002975113973079973_017_00033325693878808776_016_00005869408608359546_116_00006206500654238761_016_00006291970706766932_116_00003338886116348349_015_00000816496580927726_0,
  016_00002975113973079973_016_00002658560531825208_116_00003334321916543309_117_00044008010113427437_016_00006606184330416307_016_00029950108064592316_115_00001224744871391589_0,
  016_00002975113973079973_016_00002658560531825208_116_00005175068021523881_016_00009743846191342698_016_00007391718389539748_116_00003338886116348349_015_00000816496580927726_0,
  016_00002975113973079973_016_00002658560531825208_116_00007350495236500919_016_00011148279246928485_016_00007705932013189124_116_00003338886116348349_115_00001224744871391589_0,
  016_00003475074309356185_016_00002658560531825208_116_00017000467241399064_016_00011750179127893825_016_00008177252448663187_116_00003338886116348349_015_00000816496580927726_0,
  017_00039750346456326807_017_00033325693878808776_016_00008769978228328932_116_00010319483174168569_016_00008491466072312563_116_00003338886116348349_115_00001224744871391589_0,
  017_00039750346456326807_017_00040065782439365477_116_00008633439491487378_016_00012953978889824496_016_00008962786507786628_116_00003338886116348349_015_00000816496580927726_0,
  017_00039750346456326807_016_00004680587099991834_016_00001853235288401937_117_00037989011303774045_016_00009277000131436004_116_00003338886116348349_115_00001224744871391589_0,
  017_00039750346456326807_016_00004680587099991834_116_00008521879121488555_017_00021197810324484165_016_00009748320566910068_116_00003338886116348349_115_00001224744871391589_0,
  017_00039750346456326807_016_00004680587099991834_117_00043383652465327116_017_00028219975602413067_016_00010219641002384132_116_00003338886116348349_015_00000816496580927726_0,
  017_00039750346456326807_016_00004680587099991834_117_00007684334065703917_117_00005887684318956068_016_00010533854626033508_116_00003338886116348349_015_00000816496580927726_0,
  016_00003475074309356185_016_00004680587099991834_116_00011478228926457352_015_00002107962728285656_016_00010848068249682883_116_00003338886116348349_015_00000816496580927726_0,
  016_00003475074309356185_017_00040065782439365477_117_00018840371065586167_017_00006150313300350718_015_00001116228187333226_016_00029950108064592316_115_00001224744871391589_0,
  016_00003475074309356185_017_00040065782439365477_115_00000556552931651976_017_00017185144451381926_014_00000119478159324557_116_00003338886116348349_115_00001224744871391589_0,
  016_00003475074309356185_017_00040065782439365477_116_00002664959696550374_016_00003223264147551537_016_00012419136367929764_116_00003338886116348349_015_00000816496580927726_0,
  016_00003475074309356185_017_00040065782439365477_116_00002832300251548608_117_00007894017255507152_015_00001273334999157914_116_00003338886116348349_115_00001224744871391589_0,
  016_00003475074309356185_017_00033325693878808776_118_00015485137157686792_016_00007436563314308898_016_00013204670427053204_116_00003338886116348349_015_00000816496580927726_0,
  016_00003475074309356185_017_00033325693878808776_014_00000234959470681735_116_00019047031448165967_015_00001351888405070258_116_00003338886116348349_015_00000816496580927726_0,
  016_00003475074309356185_017_00033325693878808776_017_00030803993583889844_116_00009015366765410335_016_00013833097674351955_116_00003338886116348349_115_00001224744871391589_0,
  016_00003475074309356185_017_00033325693878808776_116_00010139504486471482_015_00001265302894934183_015_00001430441810982602_116_00003338886116348349_015_00000816496580927726_0,
  016_00003475074309356185_017_00033325693878808776_116_00005230848206523292_017_00011166145641728534_016_00014618631733475396_116_00003338886116348349_015_00000816496580927726_0,
  016_00003475074309356185_016_00002658560531825208_018_00023560992341901083_016_00007336246667481341_016_00014932845357124773_116_00003338886116348349_015_00000816496580927726_0,
  016_00003475074309356185_016_00002658560531825208_115_00000963748282147678_015_00001265302894934183_016_00015247058980774149_116_00003338886116348349_015_00000816496580927726_0,
  016_00003475074309356185_017_00019845516757699214_117_00045057058015309454_019_00013131449069732513_016_00015561272604423524_116_00003338886116348349_015_00000816496580927726_0,
  016_00003475074309356185_016_00002658560531825208_116_00006848473571506217_016_00021882160457477005_014_00000158754862280729_116_00003338886116348349_015_00000816496580927726_1,
  016_00002975113973079973_017_00019845516757699214_016_00014236436358271234_116_00015636265456029053_016_00016189699851722277_116_00003338886116348349_015_00000816496580927726_0,
  016_00002975113973079973_017_00019845516757699214_117_00030554209915462527_017_00010162979173452956_016_00016503913475371652_116_00003338886116348349_015_00000816496580927726_0,
  016_00002975113973079973_016_00002658560531825208_015_00005439816955784734_115_00002667109660706025_016_00016818127099021027_116_00003338886116348349_015_00000816496580927726_0,
  016_00002975113973079973_017_00019845516757699214_016_00006092529348357192_116_00009516949999548118_016_00017132340722670405_116_00003338886116348349_015_00000816496580927726_1,
  016_00002975113973079973_017_00019845516757699214_017_00041960030583772095_116_00007309983769341876_116_00016959837443286896_116_00003338886116348349_115_00001224744871391589_0,
  016_00002975113973079973_017_00013105428197142516_014_00000046422445383725_116_00005905550713756088_115_00001648851700781283_116_00003338886116348349_015_00000816496580927726_0,
  016_00002975113973079973_017_00013105428197142516_115_00000339010210154272_018_00011344809589729025_116_00016174303384163455_116_00003338886116348349_115_00001224744871391589_0,
  016_00002975113973079973_017_00013105428197142516_115_00001231493170144852_016_00011047962600100927_115_00001570298294868939_116_00003338886116348349_015_00000816496580927726_0,
  016_00003475074309356185_017_00013105428197142516_117_00025533993265515514_117_00040998510708600777_116_00015388769325040015_116_00003338886116348349_015_00000816496580927726_0,
  016_00003475074309356185_017_00019845516757699214_116_00009470142266478546_015_00001074701265961826_115_00001507455570139064_016_00029950108064592316_115_00001224744871391589_0,
  016_00002975113973079973_017_00013105428197142516_116_00005119287836524469_016_00005931813611895553_114_00000142890216422672_116_00003338886116348349_015_00000816496580927726_0,
  016_00002975113973079973_016_00000636533963658965_117_00029996408065468416_016_00009944479484997806_116_00013974808018617824_116_00003338886116348349_015_00000816496580927726_0,
  016_00002975113973079973_017_00013105428197142516_116_00002776520066549197_016_00007837829901619122_116_00013660594394968446_116_00003338886116348349_015_00000816496580927726_0,
  016_00002975113973079973_017_00013105428197142516_116_00017056247426398476_016_00012352079008859156_115_00001334638077131907_116_00003338886116348349_115_00001224744871391589_0,
  016_00003475074309356185_017_00013105428197142516_016_00005757848238360724_116_00007410300416169433_116_00012875060335845006_116_00003338886116348349_015_00000816496580927726_0,
  016_00003475074309356185_017_00013105428197142516_116_00009247021526480902_016_00004126113968999543_115_00001256084671219563_116_00003338886116348349_115_00001224744871391589_0]

/-- lr/data.csv 7102-7201 -/
def dataCsv71 : List ℕ := [
  016_00003475074309356185_017_00013105428197142516_017_00016858947334037033_116_00007209667122514325_116_00012089526276721567_116_00003338886116348349_015_00000816496580927726_0,
  017_00039750346456326807_017_00013105428197142516_016_00017360126718238265_116_00017241331805269953_115_00001177531265307219_116_00003338886116348349_015_00000816496580927726_0,
  017_00039750346456326807_017_00019845516757699214_117_00024976191415521404_016_00002220097679275974_116_00011461099029422814_116_00003338886116348349_115_00001224744871391589_0,
  017_00039750346456326807_017_00019845516757699214_016_00013288173213281242_115_00000991821658685834_116_00010989778593948751_016_00029950108064592316_115_00001224744871391589_0,
  017_00044749949819088924_016_00002658560531825208_115_00000472882654152859_015_00000312294750072398_115_00001020424453482531_116_00003338886116348349_015_00000816496580927726_0,
  017_00044749949819088924_016_00002658560531825208_118_00015485137157686792_116_00005805234066928531_116_00009890030911175934_116_00003338886116348349_015_00000816496580927726_0,
  017_00039750346456326807_017_00033325693878808776_117_00031669813615450754_117_00009900350192058306_116_00009575817287526558_116_00003338886116348349_015_00000816496580927726_0,
  017_00044749949819088924_017_00033325693878808776_116_00001493575811562738_017_00012169312110004112_116_00009261603663877183_016_00029950108064592316_115_00001224744871391589_0,
  017_00039750346456326807_017_00033325693878808776_117_00015493559965621492_117_00042001677176876356_116_00008476069604753742_116_00003338886116348349_115_00001224744871391589_0,
  017_00044749949819088924_017_00033325693878808776_016_00003359300283386041_017_00005147146832075141_116_00008004749169279678_116_00003338886116348349_015_00000816496580927726_0,
  017_00039750346456326807_016_00002658560531825208_117_00011588947015662704_115_00000399953442403252_116_00007690535545630302_116_00003338886116348349_115_00001224744871391589_0,
  017_00039750346456326807_016_00002658560531825208_117_00049519472815262355_117_00005887684318956068_116_00007219215110156237_116_00003338886116348349_115_00001224744871391589_0,
  017_00044749949819088924_016_00002658560531825208_116_00006234891536512694_016_00007035296726998674_116_00006747894674682174_116_00003338886116348349_015_00000816496580927726_0,
  017_00044749949819088924_016_00002658560531825208_017_00012396532534084133_116_00007309983769341876_116_00006433681051032798_116_00003338886116348349_015_00000816496580927726_0,
  017_00044749949819088924_016_00002658560531825208_117_00045614859865303564_015_00000382516402851687_116_00006119467427383422_016_00029950108064592316_115_00001224744871391589_0,
  017_00049749553181853884_017_00040065782439365477_117_00043941454315321227_016_00013656195417617392_116_00005333933368259982_116_00003338886116348349_115_00001224744871391589_0,
  017_00049749553181853884_017_00033325693878808776_017_00034708606533848635_116_00006808400535204094_117_00048626129327859174_116_00003338886116348349_015_00000816496580927726_0,
  017_00044749949819088924_017_00033325693878808776_017_00017416749184031147_018_00011344809589729025_117_00045483993091365416_116_00003338886116348349_015_00000816496580927726_0,
  017_00044749949819088924_017_00033325693878808776_017_00014627739934060582_117_00040998510708600777_117_00042341856854871657_116_00003338886116348349_015_00000816496580927726_0,
  017_00049749553181853884_017_00033325693878808776_116_00008968120601483845_016_00004427063909482209_115_00000391997206183779_116_00003338886116348349_015_00000816496580927726_0,
  017_00044749949819088924_017_00033325693878808776_015_00004179184774798039_116_00023962547142716226_117_00036057584381884134_116_00003338886116348349_015_00000816496580927726_0,
  017_00044749949819088924_016_00002658560531825208_116_00009135461156482079_016_00004728013849964882_117_00032915448145390375_116_00003338886116348349_115_00001224744871391589_0,
  017_00044749949819088924_016_00002658560531825208_016_00013901755248274767_116_00012225499463892138_117_00028202243790649734_116_00003338886116348349_015_00000816496580927726_0,
  017_00044749949819088924_016_00002658560531825208_017_00020763560283995822_017_00004143980363799563_117_00025060107554155975_116_00003338886116348349_115_00001224744871391589_0,
  017_00039750346456326807_017_00019845516757699214_016_00018364170048227666_116_00015535948809201496_117_00020346903199415334_116_00003338886116348349_115_00001224744871391589_0,
  016_00003475074309356185_016_00000636533963658965_116_00015494402246414962_016_00016665694822444082_117_00015633698844674693_116_00003338886116348349_015_00000816496580927726_0,
  016_00002975113973079973_118_00003747489239670474_018_00017982973841959956_116_00006106184007411204_117_00012491562608180934_116_00003338886116348349_115_00001224744871391589_0,
  016_00002975113973079973_118_00003747489239670474_115_00000562130950151917_016_00013856828711272502_117_00007778358253440293_116_00003338886116348349_015_00000816496580927726_0,
  016_00002975113973079973_118_00003747489239670474_117_00015493559965621492_117_00030966846025845146_118_00046362220169465326_116_00003338886116348349_015_00000816496580927726_0,
  016_00002975113973079973_118_00003747489239670474_016_00005367386943364846_116_00009015366765410335_118_00014940857804527726_116_00003338886116348349_015_00000816496580927726_0,
  016_00002975113973079973_117_00007114837484523745_116_00006179111351513282_016_00008840996369894685_018_00016480504560409875_116_00003338886116348349_015_00000816496580927726_0,
  016_00002475153636803477_116_00001385492604507661_116_00007183154681502685_016_00004427063909482209_017_00004790186692534748_116_00003338886116348349_115_00001224744871391589_0,
  016_00002475153636803477_117_00007114837484523745_116_00006458012276510339_015_00000793814654844668_017_00009503391047275388_116_00003338886116348349_015_00000816496580927726_0,
  016_00002475153636803477_117_00007114837484523745_016_00000737631588413712_017_00013172478578279617_017_00012645527283769148_116_00003338886116348349_115_00001224744871391589_0,
  016_00002475153636803477_118_00003747489239670474_115_00000740627542150033_015_00001024542942548048_016_00001735873163850979_116_00003338886116348349_115_00001224744871391589_0,
  016_00002475153636803477_117_00007114837484523745_116_00005342408576522114_016_00008339413135756903_016_00002207193599325043_116_00003338886116348349_015_00000816496580927726_0,
  016_00002475153636803477_117_00007114837484523745_115_00001092042707646324_016_00023788176747200582_016_00002521407222974419_116_00003338886116348349_115_00001224744871391589_0,
  016_00002975113973079973_118_00003747489239670474_117_00029438606215474306_017_00012169312110004112_016_00002992727658448483_116_00003338886116348349_115_00001224744871391589_0,
  016_00002975113973079973_016_00000636533963658965_116_00013486315586436157_016_00010044796131825364_016_00003464048093922547_116_00003338886116348349_015_00000816496580927726_0,
  016_00002975113973079973_016_00000636533963658965_116_00002441838956552729_017_00023204143261035248_016_00003778261717571923_116_00003338886116348349_015_00000816496580927726_0,
  016_00002475153636803477_117_00007114837484523745_114_00000087449998614862_016_00006533713492860893_016_00004092475341221299_116_00003338886116348349_015_00000816496580927726_0,
  017_00019751933005269812_116_00001385492604507661_116_00010195284671470892_016_00004427063909482209_017_00044066889648706753_116_00003338886116348349_115_00001224744871391589_0,
  017_00014752329642507697_117_00020595014605633308_116_00004840386911527413_017_00015178811514830773_017_00048780094003447394_016_00029950108064592316_115_00001224744871391589_0,
  017_00014752329642507697_117_00020595014605633308_017_00024110371383960497_116_00009216000059065448_016_00005663543459468179_016_00029950108064592316_115_00001224744871391589_0,
  017_00019751933005269812_116_00001385492604507661_117_00012146748865656816_017_00003140813895523986_016_00006449077518591619_116_00003338886116348349_115_00001224744871391589_0,
  016_00002475153636803477_118_00003747489239670474_116_00007015814126504452_017_00045273805563097663_016_00006920397954065683_116_00003338886116348349_015_00000816496580927726_0,
  017_00019751933005269812_117_00007114837484523745_116_00002386058771553318_116_00008212833590789884_015_00000723461157771506_116_00003338886116348349_015_00000816496580927726_0,
  017_00014752329642507697_116_00001385492604507661_116_00004059464321535655_017_00012169312110004112_016_00007548825201364435_116_00003338886116348349_015_00000816496580927726_0,
  017_00014752329642507697_116_00001385492604507661_017_00043633436133754433_017_00008156646236901802_016_00007863038825013812_116_00003338886116348349_115_00001224744871391589_0,
  017_00009752726279742736_116_00001385492604507661_117_00018282569215592054_017_00018188310919657433_016_00008334359260487876_116_00003338886116348349_015_00000816496580927726_0,
  017_00009752726279742736_116_00001385492604507661_116_00007685176346497387_016_00009342579604032467_016_00008648572884137251_116_00003338886116348349_015_00000816496580927726_0,
  017_00009752726279742736_117_00007114837484523745_016_00020483817078205293_116_00017141015158442399_016_00008962786507786628_016_00029950108064592316_115_00001224744871391589_0,
  017_00009752726279742736_117_00007114837484523745_017_00015185541784054696_117_00035982678367222964_016_00009748320566910068_116_00003338886116348349_015_00000816496580927726_0,
  017_00009752726279742736_118_00003747489239670474_117_00025533993265515514_016_00007336246667481341_016_00010062534190559445_116_00003338886116348349_015_00000816496580927726_0,
  017_00014752329642507697_016_00000636533963658965_117_00031112011765456643_118_00008718519775782523_015_00001037674781420882_116_00003338886116348349_015_00000816496580927726_0,
  017_00009752726279742736_117_00007114837484523745_017_00016858947334037033_116_00008814733471755224_016_00010690961437858195_116_00003338886116348349_115_00001224744871391589_0,
  017_00009752726279742736_118_00003747489239670474_016_00006985012308347772_116_00009316316705893005_015_00001116228187333226_116_00003338886116348349_115_00001224744871391589_0,
  017_00009752726279742736_118_00003747489239670474_117_00029438606215474306_018_00011344809589729025_016_00011633602308806323_116_00003338886116348349_015_00000816496580927726_0,
  017_00009752726279742736_118_00003747489239670474_116_00008354538566490322_016_00013656195417617392_014_00000119478159324557_116_00003338886116348349_015_00000816496580927726_0,
  016_00000475312291698062_118_00003747489239670474_117_00015493559965621492_017_00017185144451381926_016_00012262029556105076_116_00003338886116348349_015_00000816496580927726_0,
  017_00009752726279742736_016_00000636533963658965_117_00029996408065468416_017_00005147146832075141_016_00012576243179754452_116_00003338886116348349_115_00001224744871391589_0,
  017_00009752726279742736_017_00013105428197142516_116_00005509749131520348_016_00002922314207068864_016_00013047563615228517_116_00003338886116348349_015_00000816496580927726_0,
  017_00009752726279742736_017_00013105428197142516_116_00008968120601483845_016_00003925480675344427_016_00013361777238877892_116_00003338886116348349_015_00000816496580927726_0,
  016_00000475312291698062_016_00000636533963658965_117_00021071578465562615_117_00006890850787231645_016_00013675990862527267_116_00003338886116348349_115_00001224744871391589_0,
  017_00009752726279742736_016_00000636533963658965_117_00036132228415403655_016_00004025797322171985_016_00014147311298001333_116_00003338886116348349_115_00001224744871391589_0,
  017_00009752726279742736_016_00000636533963658965_116_00008187198011492087_015_00000793814654844668_016_00014618631733475396_116_00003338886116348349_015_00000816496580927726_0,
  017_00014752329642507697_017_00013105428197142516_116_00006123331166513871_016_00004728013849964882_016_00014932845357124773_116_00003338886116348349_115_00001224744871391589_0,
  017_00014752329642507697_017_00019845516757699214_116_00009860603561474425_015_00002037741075506366_016_00015404165792598836_116_00003338886116348349_015_00000816496580927726_1,
  017_00014752329642507697_017_00019845516757699214_016_00009216219708324221_116_00010520116467823681_116_00016959837443286896_116_00003338886116348349_015_00000816496580927726_0,
  017_00014752329642507697_017_00013105428197142516_116_00002609179511550963_016_00012352079008859156_116_00016645623819637518_116_00003338886116348349_015_00000816496580927726_0,
  017_00014752329642507697_017_00013105428197142516_116_00005398188761521525_117_00004884517850680491_116_00016331410195988143_116_00003338886116348349_115_00001224744871391589_0,
  017_00009752726279742736_017_00013105428197142516_115_00000562130950151917_016_00011549545834238708_116_00015860089760514078_116_00003338886116348349_115_00001224744871391589_0,
  016_00000475312291698062_016_00000636533963658965_116_00007629396161497976_015_00000663403013968845_116_00015388769325040015_116_00003338886116348349_115_00001224744871391589_0,
  016_00000475312291698062_016_00000636533963658965_016_00008100616008335997_116_00009216000059065448_115_00001491744888956595_116_00003338886116348349_015_00000816496580927726_0,
  017_00009752726279742736_017_00013105428197142516_117_00004895324815733354_016_00008540046429412019_116_00014603235265916574_116_00003338886116348349_015_00000816496580927726_0,
  016_00000475312291698062_016_00000636533963658965_017_00016858947334037033_016_00003524214088034203_114_00000142890216422672_116_00003338886116348349_015_00000816496580927726_0,
  016_00000475312291698062_016_00000636533963658965_016_00006204089718356014_116_00008413466884444997_116_00013974808018617824_116_00003338886116348349_015_00000816496580927726_0,
  017_00009752726279742736_017_00013105428197142516_115_00000690425375650563_015_00000964352954451514_116_00013660594394968446_116_00003338886116348349_015_00000816496580927726_0,
  017_00009752726279742736_017_00013105428197142516_016_00003415080468385452_116_00008513783531272554_115_00001334638077131907_116_00003338886116348349_015_00000816496580927726_0,
  017_00009752726279742736_016_00000636533963658965_117_00008799937765692141_017_00023204143261035248_116_00013032167147669695_116_00003338886116348349_015_00000816496580927726_0,
  017_00009752726279742736_017_00013105428197142516_016_00004976925648368967_116_00009717583293203229_116_00012717953524020318_116_00003338886116348349_115_00001224744871391589_0,
  017_00009752726279742736_017_00019845516757699214_116_00011589789296456174_016_00012151445715204048_116_00012246633088546255_116_00003338886116348349_015_00000816496580927726_0,
  017_00014752329642507697_017_00019845516757699214_015_00003454042369805693_116_00023260330614923332_116_00011932419464896877_116_00003338886116348349_015_00000816496580927726_0,
  017_00009752726279742736_017_00019845516757699214_116_00005230848206523292_016_00010947645953273368_116_00011618205841247502_116_00003338886116348349_015_00000816496580927726_0,
  017_00009752726279742736_017_00019845516757699214_017_00030246191733895733_117_00038992177772049624_116_00011303992217598127_116_00003338886116348349_115_00001224744871391589_0,
  017_00014752329642507697_016_00002658560531825208_016_00007431253788343062_115_00001082106640830635_116_00010832671782124061_116_00003338886116348349_015_00000816496580927726_0,
  017_00019751933005269812_017_00033325693878808776_016_00005869408608359546_116_00008614100178100111_116_00010518458158474686_116_00003338886116348349_115_00001224744871391589_0,
  017_00019751933005269812_017_00033325693878808776_116_00007629396161497976_016_00014358411945410283_116_00010047137723000623_116_00003338886116348349_015_00000816496580927726_0,
  017_00019751933005269812_016_00002658560531825208_115_00001409989762142968_015_00001686632811609919_116_00009732924099351247_116_00003338886116348349_015_00000816496580927726_0,
  017_00019751933005269812_016_00002658560531825208_117_00029438606215474306_016_00006333080199205777_115_00000941871047570187_116_00003338886116348349_015_00000816496580927726_0,
  017_00014752329642507697_017_00019845516757699214_116_00010808866706464417_016_00006333080199205777_116_00009104496852052494_116_00003338886116348349_015_00000816496580927726_0,
  017_00014752329642507697_017_00019845516757699214_016_00005032705833368378_116_00005905550713756088_116_00008790283228403118_116_00003338886116348349_015_00000816496580927726_0,
  017_00009752726279742736_017_00013105428197142516_116_00006123331166513871_015_00000382516402851687_116_00008476069604753742_116_00003338886116348349_115_00001224744871391589_0,
  016_00000475312291698062_016_00000636533963658965_116_00012984293921441454_016_00024791343215476145_116_00008004749169279678_116_00003338886116348349_015_00000816496580927726_0,
  016_00000475312291698062_016_00000636533963658965_116_00008856560231485022_015_00001265302894934183_116_00007690535545630302_116_00003338886116348349_015_00000816496580927726_0,
  016_00000475312291698062_016_00000636533963658965_116_00005342408576522114_016_00009342579604032467_116_00007376321921980926_116_00003338886116348349_115_00001224744871391589_0,
  016_00000475312291698062_016_00000636533963658965_116_00006290671721512106_016_00002721680913413756_116_00006905001486506862_016_00029950108064592316_115_00001224744871391589_0,
  118_00002464804457843392_118_00003747489239670474_117_00029438606215474306_017_00018188310919657433_116_00006119467427383422_116_00003338886116348349_015_00000816496580927726_0,
  118_00002464804457843392_117_00007114837484523745_117_00004895324815733354_116_00005504284126445864_116_00005805253803734046_116_00003338886116348349_115_00001224744871391589_0,
  118_00002464804457843392_117_00007114837484523745_116_00001772476736559794_017_00014175645046555194_116_00005333933368259982_116_00003338886116348349_015_00000816496580927726_0]

/-- lr/data.csv 7202-7301 -/
def dataCsv72 : List ℕ := [
  118_00002464804457843392_117_00007114837484523745_016_00003861321948380742_116_00006607767241548985_116_00005019719744610606_116_00003338886116348349_015_00000816496580927726_0,
  118_00002464804457843392_116_00001385492604507661_117_00036132228415403655_017_00006150313300350718_115_00000470550612096123_116_00003338886116348349_015_00000816496580927726_0,
  118_00002464804457843392_117_00020595014605633308_115_00001186869022145323_016_00021982477104304565_116_00004391292497311854_116_00003338886116348349_015_00000816496580927726_0,
  117_00010245687171311416_117_00027335103166186175_116_00005844430241516816_016_00008038463195274238_117_00040770788736624775_116_00003338886116348349_115_00001224744871391589_0,
  117_00010245687171311416_117_00027335103166186175_117_00007126532215709803_017_00017185144451381926_117_00036057584381884134_116_00003338886116348349_015_00000816496580927726_0,
  117_00010245687171311416_117_00020595014605633308_117_00031112011765456643_117_00003881351382404913_117_00032915448145390375_116_00003338886116348349_015_00000816496580927726_0,
  117_00010245687171311416_117_00020595014605633308_117_00045614859865303564_016_00011950812421548933_117_00029773311908896616_116_00003338886116348349_015_00000816496580927726_0,
  117_00015245290534076375_117_00027335103166186175_019_00068269368420777075_116_00005604600773273423_117_00026631175672402857_116_00003338886116348349_115_00001224744871391589_0,
  117_00010245687171311416_117_00020595014605633308_016_00009383560263322456_116_00010921383055133904_117_00021917971317662216_116_00003338886116348349_015_00000816496580927726_0,
  117_00010245687171311416_117_00020595014605633308_016_00004753804908371322_116_00005805234066928531_117_00018775835081168454_116_00003338886116348349_015_00000816496580927726_0,
  117_00010245687171311416_117_00027335103166186175_116_00011589789296456174_015_00001024542942548048_117_00015633698844674693_116_00003338886116348349_115_00001224744871391589_0,
  117_00010245687171311416_117_00020595014605633308_116_00006011770796515049_017_00003140813895523986_117_00010920494489934053_116_00003338886116348349_015_00000816496580927726_0,
  117_00010245687171311416_117_00020595014605633308_016_00009271999893323634_116_00011523282936099244_117_00007778358253440293_116_00003338886116348349_115_00001224744871391589_0,
  117_00010245687171311416_116_00001385492604507661_116_00006234891536512694_016_00005229597084102664_117_00003065153898699653_116_00003338886116348349_115_00001224744871391589_0,
  117_00005246083808549298_116_00001385492604507661_017_00048095850933707335_017_00012169312110004112_018_00016480504560409875_116_00003338886116348349_115_00001224744871391589_0,
  117_00005246083808549298_116_00001385492604507661_116_00003445882286542132_016_00007737513254791571_017_00006361254810781627_116_00003338886116348349_015_00000816496580927726_0,
  118_00002464804457843392_117_00007114837484523745_016_00006259869903355426_116_00011924549523409467_017_00009503391047275388_116_00003338886116348349_115_00001224744871391589_0,
  117_00005246083808549298_116_00001385492604507661_016_00009885581928317156_116_00011824232876581913_016_00001421659540201603_116_00003338886116348349_015_00000816496580927726_0,
  117_00005246083808549298_116_00001385492604507661_116_00007740956531496798_016_00008740679723067134_016_00001735873163850979_016_00029950108064592316_115_00001224744871391589_0,
  117_00010245687171311416_117_00020595014605633308_016_00000960752328411357_117_00022941514279640599_016_00002521407222974419_116_00003338886116348349_115_00001224744871391589_0,
  117_00010245687171311416_117_00020595014605633308_116_00006123331166513871_016_00002621364266586198_016_00002992727658448483_116_00003338886116348349_015_00000816496580927726_0,
  117_00015245290534076375_117_00027335103166186175_116_00005900210426516227_015_00000964352954451514_016_00003306941282097859_016_00029950108064592316_115_00001224744871391589_0,
  117_00010245687171311416_117_00020595014605633308_116_00012203371331449697_016_00021781843810649457_016_00004092475341221299_116_00003338886116348349_115_00001224744871391589_0,
  117_00010245687171311416_117_00027335103166186175_115_00000919124134148149_016_00011649862481066267_016_00004563795776695363_116_00003338886116348349_015_00000816496580927726_0,
  117_00010245687171311416_117_00027335103166186175_015_00000330352009838663_116_00009015366765410335_017_00048780094003447394_116_00003338886116348349_015_00000816496580927726_0,
  117_00010245687171311416_117_00020595014605633308_016_00020706937818202937_116_00018244498273545515_016_00005192223023994115_116_00003338886116348349_115_00001224744871391589_0,
  117_00015245290534076375_117_00027335103166186175_116_00007796736716496209_016_00011348912540583593_016_00005663543459468179_116_00003338886116348349_015_00000816496580927726_0,
  117_00015245290534076375_117_00027335103166186175_016_00010108702668314802_116_00012927715991685031_016_00005977757083117555_116_00003338886116348349_015_00000816496580927726_0,
  117_00010245687171311416_117_00020595014605633308_116_00009525922451477957_016_00007436563314308898_016_00006291970706766932_016_00029950108064592316_115_00001224744871391589_0,
  117_00010245687171311416_116_00001385492604507661_016_00011726328033297728_116_00006607767241548985_016_00007077504765890371_116_00003338886116348349_015_00000816496580927726_0,
  117_00010245687171311416_116_00001385492604507661_018_00017982973841959956_117_00005887684318956068_016_00007391718389539748_116_00003338886116348349_015_00000816496580927726_0,
  117_00010245687171311416_117_00007114837484523745_017_00007934117734131232_117_00033976345430671806_016_00007705932013189124_116_00003338886116348349_015_00000816496580927726_0,
  117_00005246083808549298_117_00007114837484523745_016_00005590507683362491_017_00021197810324484165_016_00008020145636838499_116_00003338886116348349_115_00001224744871391589_0,
  117_00005246083808549298_118_00003747489239670474_116_00005119287836524469_016_00005931813611895553_016_00008491466072312563_116_00003338886116348349_015_00000816496580927726_0,
  117_00010245687171311416_118_00003747489239670474_116_00007908297086495032_016_00008138779842101795_015_00000880567969596194_116_00003338886116348349_115_00001224744871391589_0,
  117_00010245687171311416_118_00003747489239670474_116_00009916383746473837_016_00013856828711272502_016_00009277000131436004_116_00003338886116348349_015_00000816496580927726_0,
  117_00010245687171311416_118_00003747489239670474_117_00043941454315321227_117_00028960513089293993_016_00009591213755085379_116_00003338886116348349_115_00001224744871391589_0,
  117_00010245687171311416_118_00003747489239670474_016_00005200046388366611_116_00006306817301066312_016_00010062534190559445_116_00003338886116348349_115_00001224744871391589_0,
  117_00010245687171311416_118_00003747489239670474_016_00008825758413328343_115_00000399953442403252_016_00010533854626033508_116_00003338886116348349_015_00000816496580927726_0,
  117_00010245687171311416_016_00000636533963658965_017_00007934117734131232_017_00020194643856208588_016_00010848068249682883_116_00003338886116348349_015_00000816496580927726_0,
  117_00005246083808549298_016_00000636533963658965_116_00009860603561474425_016_00016364744881961408_015_00001116228187333226_116_00003338886116348349_115_00001224744871391589_0,
  117_00005246083808549298_118_00003747489239670474_117_00030554209915462527_017_00021197810324484165_016_00011633602308806323_116_00003338886116348349_115_00001224744871391589_0,
  117_00005246083808549298_016_00000636533963658965_116_00005119287836524469_016_00011449229187411152_016_00012104922744280389_016_00029950108064592316_115_00001224744871391589_0,
  118_00002464804457843392_017_00013105428197142516_116_00008131417826492676_016_00011248595893756042_016_00012890456803403827_116_00003338886116348349_115_00001224744871391589_0,
  118_00002464804457843392_017_00013105428197142516_015_00001233991006829125_116_00013128349285340146_016_00013361777238877892_116_00003338886116348349_015_00000816496580927726_0,
  118_00002464804457843392_016_00000636533963658965_116_00003445882286542132_116_00005403967479618307_016_00013675990862527267_116_00003338886116348349_015_00000816496580927726_0,
  117_00005246083808549298_016_00000636533963658965_016_00007933275453337764_116_00010921383055133904_016_00013990204486176645_116_00003338886116348349_015_00000816496580927726_0,
  118_00002464804457843392_016_00000636533963658965_116_00012538052441446166_016_00013555878770789835_015_00001430441810982602_116_00003338886116348349_115_00001224744871391589_0,
  118_00002464804457843392_016_00000636533963658965_016_00012451470438290075_116_00012024866170237025_016_00014775738545300083_116_00003338886116348349_015_00000816496580927726_0,
  117_00005246083808549298_118_00003747489239670474_116_00007629396161497976_016_00004728013849964882_015_00001508995216894946_116_00003338886116348349_015_00000816496580927726_0,
  016_00000475312291698062_017_00013105428197142516_116_00006123331166513871_017_00020194643856208588_016_00015404165792598836_116_00003338886116348349_115_00001224744871391589_0,
  017_00009752726279742736_017_00019845516757699214_116_00005063507651525058_018_00011344809589729025_014_00000158754862280729_116_00003338886116348349_115_00001224744871391589_0,
  017_00009752726279742736_016_00002658560531825208_117_00021071578465562615_016_00002922314207068864_016_00016346806663546964_016_00029950108064592316_115_00001224744871391589_0,
  017_00014752329642507697_017_00033325693878808776_117_00009357739615686254_117_00008897183723782728_016_00017132340722670405_116_00003338886116348349_015_00000816496580927726_0,
  017_00014752329642507697_016_00002658560531825208_117_00025533993265515514_117_00024947847216191754_015_00001744655434631978_116_00003338886116348349_015_00000816496580927726_0,
  017_00009752726279742736_017_00019845516757699214_016_00009216219708324221_116_00010620433114651238_016_00017760767969969156_116_00003338886116348349_115_00001224744871391589_0,
  017_00009752726279742736_017_00019845516757699214_116_00007294715051501508_015_00000252104761975864_116_00016959837443286896_016_00029950108064592316_115_00001224744871391589_0,
  017_00009752726279742736_016_00002658560531825208_117_00011588947015662704_017_00018188310919657433_116_00016174303384163455_116_00003338886116348349_015_00000816496580927726_0,
  017_00014752329642507697_016_00002658560531825208_015_00001133586673830185_116_00014131515753615709_116_00015860089760514078_116_00003338886116348349_015_00000816496580927726_0,
  017_00019751933005269812_017_00033325693878808776_116_00002162938031555673_016_00003022630853896422_116_00015545876136864702_116_00003338886116348349_115_00001224744871391589_0,
  017_00019751933005269812_017_00033325693878808776_015_00004937795290790032_116_00025567613491957126_115_00001507455570139064_116_00003338886116348349_015_00000816496580927726_0,
  017_00019751933005269812_017_00033325693878808776_016_00015575160798257104_116_00014934048928236157_116_00014760342077741262_116_00003338886116348349_015_00000816496580927726_0,
  017_00019751933005269812_017_00040065782439365477_018_00034717029341783334_117_00044008010113427437_116_00014446128454091887_116_00003338886116348349_115_00001224744871391589_0,
  017_00019751933005269812_017_00040065782439365477_116_00006123331166513871_016_00006934980080171117_116_00013974808018617824_116_00003338886116348349_015_00000816496580927726_0,
  017_00019751933005269812_017_00040065782439365477_116_00005063507651525058_015_00000492864714361999_116_00013660594394968446_116_00003338886116348349_115_00001224744871391589_0,
  017_00019751933005269812_017_00040065782439365477_116_00008633439491487378_016_00008740679723067134_116_00013189273959494383_116_00003338886116348349_015_00000816496580927726_0,
  017_00019751933005269812_017_00033325693878808776_017_00021879163983984046_116_00007209667122514325_116_00012875060335845006_116_00003338886116348349_015_00000816496580927726_0,
  016_00002475153636803477_017_00033325693878808776_016_00008714198043329521_116_00013328982578995259_115_00001256084671219563_116_00003338886116348349_015_00000816496580927726_0,
  016_00002475153636803477_017_00040065782439365477_018_00023560992341901083_117_00037989011303774045_116_00012246633088546255_116_00003338886116348349_015_00000816496580927726_0,
  017_00019751933005269812_017_00033325693878808776_019_00068269368420777075_116_00006607767241548985_116_00011932419464896877_116_00003338886116348349_115_00001224744871391589_0,
  017_00009752726279742736_016_00002658560531825208_015_00001501735894826299_116_00014231832400443263_116_00011461099029422814_116_00003338886116348349_015_00000816496580927726_0,
  017_00014752329642507697_016_00002658560531825208_116_00013709436326433802_016_00009743846191342698_115_00001114688540577344_116_00003338886116348349_115_00001224744871391589_0,
  017_00009752726279742736_017_00019845516757699214_116_00018785433161380225_016_00019574877580443213_116_00010675564970299374_116_00003338886116348349_015_00000816496580927726_0,
  017_00009752726279742736_017_00019845516757699214_016_00009216219708324221_115_00001082106640830635_116_00010361351346649998_116_00003338886116348349_115_00001224744871391589_0,
  017_00009752726279742736_017_00019845516757699214_115_00000339010210154272_116_00001892884840653836_116_00009890030911175934_116_00003338886116348349_115_00001224744871391589_0,
  017_00009752726279742736_017_00019845516757699214_117_00013820154415639155_117_00012909849596884967_115_00000941871047570187_116_00003338886116348349_015_00000816496580927726_0,
  016_00000475312291698062_017_00019845516757699214_115_00001052996578146736_016_00008840996369894685_116_00009104496852052494_116_00003338886116348349_115_00001224744871391589_0,
  016_00000475312291698062_017_00013105428197142516_116_00003557442656540954_016_00014258095298582731_115_00000863317641657843_116_00003338886116348349_015_00000816496580927726_0,
  118_00002464804457843392_016_00000636533963658965_016_00009774021558318334_116_00011322649642444131_116_00008318962792929054_016_00029950108064592316_115_00001224744871391589_0,
  118_00002464804457843392_016_00000636533963658965_116_00004115244506535067_016_00000915981270517738_116_00007533428733805614_116_00003338886116348349_015_00000816496580927726_0,
  117_00005246083808549298_017_00013105428197142516_116_00013988337251430858_016_00029706858910026397_116_00007219215110156237_116_00003338886116348349_015_00000816496580927726_1,
  118_00002464804457843392_017_00013105428197142516_016_00007598594343341296_116_00010319483174168569_116_00006905001486506862_116_00003338886116348349_015_00000816496580927726_0,
  118_00002464804457843392_017_00013105428197142516_117_00029438606215474306_117_00035982678367222964_116_00006590787862857486_116_00003338886116348349_015_00000816496580927726_0,
  118_00002464804457843392_017_00013105428197142516_116_00005342408576522114_016_00018772344405822765_115_00000627657423920811_116_00003338886116348349_115_00001224744871391589_0,
  016_00000475312291698062_017_00019845516757699214_116_00010808866706464417_016_00017167278056581863_116_00005805253803734046_116_00003338886116348349_115_00001224744871391589_0,
  017_00009752726279742736_016_00002658560531825208_116_00018785433161380225_016_00021781843810649457_116_00005333933368259982_116_00003338886116348349_115_00001224744871391589_0,
  016_00000475312291698062_016_00002658560531825208_116_00003278541731543898_117_00028960513089293993_117_00048626129327859174_116_00003338886116348349_115_00001224744871391589_0,
  017_00009752726279742736_016_00002658560531825208_117_00004895324815733354_117_00043004843645151863_116_00004391292497311854_116_00003338886116348349_115_00001224744871391589_0,
  017_00009752726279742736_017_00040065782439365477_015_00002477889132315996_116_00019247664741821078_115_00000391997206183779_116_00003338886116348349_115_00001224744871391589_0,
  017_00014752329642507697_017_00040065782439365477_116_00005900210426516227_016_00013856828711272502_117_00034486516263637257_116_00003338886116348349_015_00000816496580927726_0,
  017_00014752329642507697_017_00040065782439365477_016_00014905798578264169_116_00015636265456029053_115_00000313443800271435_116_00003338886116348349_015_00000816496580927726_0,
  017_00009752726279742736_017_00033325693878808776_116_00006848473571506217_016_00006734346786516008_117_00028202243790649734_116_00003338886116348349_015_00000816496580927726_0,
  016_00000475312291698062_016_00002658560531825208_016_00000960752328411357_116_00001892884840653836_117_00025060107554155975_116_00003338886116348349_115_00001224744871391589_0,
  016_00000475312291698062_017_00033325693878808776_017_00049211454633695556_115_00001082106640830635_117_00020346903199415334_116_00003338886116348349_015_00000816496580927726_0,
  016_00000475312291698062_017_00040065782439365477_016_00015073139133262403_116_00015736582102856609_117_00017204766962921575_116_00003338886116348349_015_00000816496580927726_0,
  016_00000475312291698062_017_00033325693878808776_116_00011701349666454997_015_00001746822799706453_117_00014062630726427813_116_00003338886116348349_115_00001224744871391589_0,
  118_00002464804457843392_016_00002658560531825208_016_00019089312453220013_116_00018144181626717961_117_00009349426371687174_016_00029950108064592316_115_00001224744871391589_0,
  016_00000475312291698062_017_00033325693878808776_116_00002162938031555673_118_00018750184458538297_118_00014940857804527726_116_00003338886116348349_015_00000816496580927726_0,
  016_00000475312291698062_017_00033325693878808776_117_00003779721115745129_115_00000399953442403252_018_00016480504560409875_116_00003338886116348349_015_00000816496580927726_0,
  016_00000475312291698062_017_00033325693878808776_116_00002609179511550963_016_00010947645953273368_017_00004790186692534748_116_00003338886116348349_015_00000816496580927726_0]

/-- lr/data.csv 7302-7401 -/
def dataCsv73 : List ℕ := [
  017_00009752726279742736_017_00040065782439365477_116_00006011770796515049_017_00023204143261035248_017_00007932322929028508_116_00003338886116348349_015_00000816496580927726_0,
  016_00000475312291698062_016_00002658560531825208_017_00008491919584125346_117_00005887684318956068_017_00011074459165522269_116_00003338886116348349_015_00000816496580927726_0,
  016_00000475312291698062_017_00033325693878808776_117_00024976191415521404_017_00042264306158271003_016_00001421659540201603_116_00003338886116348349_015_00000816496580927726_0,
  016_00000475312291698062_017_00040065782439365477_115_00000919124134148149_016_00005430230377757772_016_00001735873163850979_116_00003338886116348349_015_00000816496580927726_0,
  016_00000475312291698062_017_00033325693878808776_116_00008075637641493265_016_00004326747262654651_016_00002050086787500355_116_00003338886116348349_015_00000816496580927726_0,
  118_00002464804457843392_017_00033325693878808776_015_00001401331561827359_116_00014332149047270821_016_00002364300411149731_116_00003338886116348349_115_00001224744871391589_0,
  016_00000475312291698062_017_00033325693878808776_116_00010195284671470892_016_00005831496965067996_016_00002835620846623795_116_00003338886116348349_015_00000816496580927726_0,
  118_00002464804457843392_016_00002658560531825208_116_00008577659306487967_016_00012151445715204048_016_00003149834470273171_116_00003338886116348349_115_00001224744871391589_0,
  118_00002464804457843392_016_00002658560531825208_116_00011478228926457352_016_00009141946310377358_017_00036211549057472353_116_00003338886116348349_015_00000816496580927726_0,
  118_00002464804457843392_016_00002658560531825208_117_00018840371065586167_015_00000492864714361999_016_00003935368529396611_116_00003338886116348349_015_00000816496580927726_0,
  118_00002464804457843392_017_00033325693878808776_017_00037497615783819194_116_00006507450594721428_016_00004249582153045987_116_00003338886116348349_015_00000816496580927726_0,
  118_00002464804457843392_017_00033325693878808776_017_00010723126984101795_117_00032973178962396227_016_00004563795776695363_016_00029950108064592316_115_00001224744871391589_0,
  118_00002464804457843392_017_00033325693878808776_116_00007071594311503863_016_00012452395655686714_016_00005349329835818804_116_00003338886116348349_015_00000816496580927726_0,
  117_00005246083808549298_016_00002658560531825208_116_00007294715051501508_115_00000159193490017117_016_00005663543459468179_116_00003338886116348349_015_00000816496580927726_0,
  117_00005246083808549298_017_00019845516757699214_116_00015103940951419084_016_00013355245477134718_016_00005977757083117555_116_00003338886116348349_015_00000816496580927726_0,
  117_00005246083808549298_016_00002658560531825208_117_00038363435815380104_016_00010044796131825364_016_00006291970706766932_116_00003338886116348349_015_00000816496580927726_0,
  117_00005246083808549298_016_00002658560531825208_117_00023302785865539066_016_00007035296726998674_016_00006606184330416307_116_00003338886116348349_015_00000816496580927726_0,
  117_00005246083808549298_017_00019845516757699214_016_00005534727498363079_116_00010921383055133904_016_00006920397954065683_116_00003338886116348349_015_00000816496580927726_0,
  117_00005246083808549298_017_00019845516757699214_118_00021063155657627917_016_00003925480675344427_015_00000723461157771506_016_00029950108064592316_115_00001224744871391589_0,
  117_00010245687171311416_017_00013105428197142516_016_00006427210458353659_116_00007309983769341876_016_00008020145636838499_116_00003338886116348349_015_00000816496580927726_0,
  117_00010245687171311416_017_00013105428197142516_116_00007127374496503274_016_00009743846191342698_016_00008334359260487876_016_00029950108064592316_115_00001224744871391589_0,
  117_00010245687171311416_017_00013105428197142516_015_00002076271800320235_115_00001653911527747706_016_00009119893319611315_116_00003338886116348349_015_00000816496580927726_0,
  117_00010245687171311416_017_00013105428197142516_017_00019090154734013484_116_00006708083888376544_016_00009434106943260692_016_00029950108064592316_115_00001224744871391589_0,
  117_00005246083808549298_017_00013105428197142516_116_00003334321916543309_016_00006333080199205777_016_00010219641002384132_116_00003338886116348349_015_00000816496580927726_0,
  117_00005246083808549298_016_00002658560531825208_016_00015686721168255926_116_00013429299225822813_016_00010533854626033508_116_00003338886116348349_115_00001224744871391589_0,
  117_00005246083808549298_016_00002658560531825208_116_00006681133016507984_016_00005731180318240445_016_00011005175061507573_116_00003338886116348349_015_00000816496580927726_0,
  117_00005246083808549298_017_00033325693878808776_116_00011366668556458528_016_00012953978889824496_016_00011319388685156948_116_00003338886116348349_115_00001224744871391589_0,
  117_00005246083808549298_017_00033325693878808776_017_00020763560283995822_117_00005887684318956068_015_00001179070912063101_116_00003338886116348349_115_00001224744871391589_0,
  118_00002464804457843392_017_00033325693878808776_117_00012146748865656816_016_00002220097679275974_016_00012262029556105076_116_00003338886116348349_015_00000816496580927726_0,
  117_00005246083808549298_016_00002658560531825208_017_00020763560283995822_115_00000570491742010098_016_00012576243179754452_116_00003338886116348349_115_00001224744871391589_0,
  117_00010245687171311416_017_00013105428197142516_118_00009907118657745668_117_00033976345430671806_016_00013047563615228517_016_00029950108064592316_115_00001224744871391589_0,
  117_00010245687171311416_017_00019845516757699214_117_00008242135915698029_116_00005805234066928531_016_00013833097674351955_116_00003338886116348349_015_00000816496580927726_0,
  117_00010245687171311416_017_00019845516757699214_015_00001485001839326476_116_00016338481983821946_016_00014147311298001333_116_00003338886116348349_115_00001224744871391589_0,
  117_00005246083808549298_016_00002658560531825208_116_00009581702636477369_016_00013355245477134718_016_00014618631733475396_116_00003338886116348349_115_00001224744871391589_0,
  117_00010245687171311416_016_00002658560531825208_015_00000865841785833011_116_00009717583293203229_015_00001508995216894946_116_00003338886116348349_015_00000816496580927726_0,
  117_00005246083808549298_016_00002658560531825208_116_00011757129851454409_016_00009944479484997806_016_00015404165792598836_116_00003338886116348349_015_00000816496580927726_0,
  117_00005246083808549298_017_00033325693878808776_017_00005702910334154783_017_00028219975602413067_016_00015718379416248212_016_00029950108064592316_115_00001224744871391589_0,
  117_00005246083808549298_017_00033325693878808776_019_00012489183421365824_116_00007209667122514325_016_00016503913475371652_116_00003338886116348349_015_00000816496580927726_0,
  117_00010245687171311416_017_00033325693878808776_116_00002386058771553318_116_00001190668312860946_016_00016818127099021027_116_00003338886116348349_015_00000816496580927726_0,
  117_00010245687171311416_016_00002658560531825208_016_00002243696583397816_117_00035982678367222964_116_00016959837443286896_116_00003338886116348349_015_00000816496580927726_0,
  117_00015245290534076375_017_00019845516757699214_116_00008521879121488555_015_00000663403013968845_116_00016645623819637518_116_00003338886116348349_015_00000816496580927726_0,
  117_00015245290534076375_017_00019845516757699214_117_00018840371065586167_117_00022941514279640599_116_00016331410195988143_116_00003338886116348349_015_00000816496580927726_0,
  117_00015245290534076375_017_00019845516757699214_016_00006817671753349538_116_00005504284126445864_116_00016017196572338768_116_00003338886116348349_115_00001224744871391589_0,
  117_00020244893896838492_017_00013105428197142516_116_00003947903951536833_016_00008038463195274238_116_00015545876136864702_116_00003338886116348349_015_00000816496580927726_0,
  117_00020244893896838492_016_00000636533963658965_116_00008633439491487378_016_00009844162838170248_116_00015231662513215327_116_00003338886116348349_015_00000816496580927726_0,
  117_00020244893896838492_017_00013105428197142516_116_00008800780046485611_016_00020578044048718778_115_00001491744888956595_116_00003338886116348349_015_00000816496580927726_0,
  117_00020244893896838492_017_00013105428197142516_117_00038921237665374214_016_00007035296726998674_116_00014603235265916574_116_00003338886116348349_015_00000816496580927726_0,
  117_00020244893896838492_017_00013105428197142516_017_00049211454633695556_117_00033976345430671806_114_00000142890216422672_116_00003338886116348349_015_00000816496580927726_0,
  117_00015245290534076375_017_00019845516757699214_117_00042825850615333005_017_00004143980363799563_116_00013974808018617824_016_00029950108064592316_115_00001224744871391589_0,
  117_00015245290534076375_017_00013105428197142516_016_00005255826573366024_117_00034979511898947385_116_00013189273959494383_116_00003338886116348349_015_00000816496580927726_0,
  117_00015245290534076375_017_00013105428197142516_117_00038921237665374214_117_00004884517850680491_116_00012875060335845006_116_00003338886116348349_015_00000816496580927726_0,
  117_00015245290534076375_017_00013105428197142516_117_00045057058015309454_016_00003423897441206646_115_00001256084671219563_116_00003338886116348349_015_00000816496580927726_0,
  117_00015245290534076375_017_00013105428197142516_116_00005509749131520348_017_00028219975602413067_116_00012246633088546255_116_00003338886116348349_115_00001224744871391589_0,
  117_00010245687171311416_017_00019845516757699214_016_00008267956563334231_116_00009617266646375675_115_00001177531265307219_116_00003338886116348349_015_00000816496580927726_0,
  117_00015245290534076375_017_00019845516757699214_116_00006123331166513871_016_00007737513254791571_116_00011461099029422814_116_00003338886116348349_115_00001224744871391589_0,
  117_00020244893896838492_017_00013105428197142516_016_00002745718248392517_116_00005905550713756088_116_00010989778593948751_116_00003338886116348349_015_00000816496580927726_0,
  117_00020244893896838492_017_00013105428197142516_116_00011478228926457352_016_00011248595893756042_116_00010675564970299374_116_00003338886116348349_015_00000816496580927726_0,
  117_00020244893896838492_016_00000636533963658965_116_00002888080436548019_016_00002922314207068864_116_00010361351346649998_116_00003338886116348349_015_00000816496580927726_0,
  116_00002524449725960345_016_00000636533963658965_016_00006706111383350716_116_00008513783531272554_116_00010047137723000623_116_00003338886116348349_115_00001224744871391589_0,
  116_00003024410062236841_118_00003747489239670474_116_00001493575811562738_016_00003223264147551537_116_00009575817287526558_116_00003338886116348349_115_00001224744871391589_0,
  116_00002524449725960345_016_00000636533963658965_016_00002578377693394283_117_00048020675986529676_116_00009104496852052494_116_00003338886116348349_015_00000816496580927726_0,
  116_00002524449725960345_118_00003747489239670474_117_00020513776615568505_117_00014916182533436123_116_00008790283228403118_116_00003338886116348349_015_00000816496580927726_0,
  116_00002524449725960345_118_00003747489239670474_017_00030803993583889844_117_00049023842454805255_116_00008476069604753742_116_00003338886116348349_015_00000816496580927726_0,
  116_00002524449725960345_118_00003747489239670474_116_00007071594311503863_016_00008941313016722243_116_00008161855981104366_116_00003338886116348349_015_00000816496580927726_0,
  116_00002524449725960345_117_00007114837484523745_116_00007629396161497976_016_00011750179127893825_115_00000784764235745499_116_00003338886116348349_015_00000816496580927726_0,
  117_00020244893896838492_016_00000636533963658965_015_00002890662501311639_116_00019648931329131307_116_00007533428733805614_116_00003338886116348349_015_00000816496580927726_0,
  117_00020244893896838492_016_00000636533963658965_117_00004337522965739242_117_00031970012494120725_116_00007219215110156237_016_00029950108064592316_115_00001224744871391589_0,
  116_00002524449725960345_016_00000636533963658965_116_00010027944116472658_016_00021179943929684115_116_00006433681051032798_116_00003338886116348349_115_00001224744871391589_0,
  117_00020244893896838492_017_00013105428197142516_016_00004530684168373677_116_00010018533233685898_116_00005962360615558734_116_00003338886116348349_115_00001224744871391589_0,
  117_00020244893896838492_016_00000636533963658965_015_00000598096897835837_116_00010419799820996123_115_00000549104018008467_116_00003338886116348349_115_00001224744871391589_0,
  117_00020244893896838492_016_00000636533963658965_116_00004673046356529179_016_00006132446905550669_116_00005019719744610606_116_00003338886116348349_115_00001224744871391589_0,
  117_00020244893896838492_017_00013105428197142516_116_00001493575811562738_016_00004025797322171985_117_00045483993091365416_116_00003338886116348349_015_00000816496580927726_0,
  117_00020244893896838492_017_00013105428197142516_117_00036690030265397766_016_00002721680913413756_117_00042341856854871657_116_00003338886116348349_015_00000816496580927726_0,
  117_00020244893896838492_016_00000636533963658965_017_00007934117734131232_116_00001993201487481394_115_00000391997206183779_116_00003338886116348349_015_00000816496580927726_0,
  116_00002524449725960345_118_00003747489239670474_116_00008912340416484434_016_00010446062719135587_117_00036057584381884134_116_00003338886116348349_015_00000816496580927726_0,
  116_00003024410062236841_117_00007114837484523745_016_00001574334363404881_017_00006150313300350718_117_00032915448145390375_116_00003338886116348349_115_00001224744871391589_0,
  116_00002524449725960345_118_00003747489239670474_117_00032227615465444864_015_00000312294750072398_117_00028202243790649734_116_00003338886116348349_015_00000816496580927726_0,
  116_00002524449725960345_118_00003747489239670474_115_00001058574596646677_016_00012753345596169388_117_00025060107554155975_116_00003338886116348349_015_00000816496580927726_0,
  116_00002524449725960345_118_00003747489239670474_116_00008410318751489733_016_00012452395655686714_117_00021917971317662216_116_00003338886116348349_015_00000816496580927726_0,
  117_00020244893896838492_016_00000636533963658965_116_00010139504486471482_016_00008740679723067134_117_00018775835081168454_116_00003338886116348349_115_00001224744871391589_0,
  117_00020244893896838492_017_00013105428197142516_015_00001139164692330126_116_00015234998868718825_117_00014062630726427813_116_00003338886116348349_015_00000816496580927726_0,
  117_00015245290534076375_017_00019845516757699214_116_00002441838956552729_015_00000312294750072398_117_00010920494489934053_116_00003338886116348349_015_00000816496580927726_0,
  117_00010245687171311416_016_00002658560531825208_016_00008881538598327754_116_00011723916229754356_117_00007778358253440293_116_00003338886116348349_015_00000816496580927726_0,
  117_00015245290534076375_016_00002658560531825208_116_00007183154681502685_017_00045273805563097663_118_00046362220169465326_116_00003338886116348349_115_00001224744871391589_0,
  117_00015245290534076375_016_00002658560531825208_017_00041960030583772095_117_00037989011303774045_019_00007698233779410749_116_00003338886116348349_015_00000816496580927726_0,
  117_00010245687171311416_017_00033325693878808776_116_00009135461156482079_016_00013957145358100058_017_00003219118574287868_116_00003338886116348349_115_00001224744871391589_0,
  117_00010245687171311416_017_00040065782439365477_017_00019647956584007595_116_00008212833590789884_017_00007932322929028508_116_00003338886116348349_115_00001224744871391589_0,
  117_00010245687171311416_017_00040065782439365477_116_00006458012276510339_016_00004627697203137324_017_00012645527283769148_016_00029950108064592316_115_00001224744871391589_0,
  117_00010245687171311416_017_00040065782439365477_015_00000865841785833011_116_00008714416824927665_016_00002050086787500355_116_00003338886116348349_115_00001224744871391589_0,
  117_00010245687171311416_017_00040065782439365477_016_00009383560263322456_116_00007510617062996991_016_00002521407222974419_116_00003338886116348349_015_00000816496580927726_0,
  117_00015245290534076375_017_00033325693878808776_116_00002720739881549785_017_00012169312110004112_016_00002835620846623795_116_00003338886116348349_115_00001224744871391589_0,
  117_00015245290534076375_017_00040065782439365477_016_00007598594343341296_116_00008714416824927665_016_00003306941282097859_116_00003338886116348349_015_00000816496580927726_0,
  117_00015245290534076375_017_00033325693878808776_116_00002609179511550963_117_00006890850787231645_017_00036211549057472353_116_00003338886116348349_115_00001224744871391589_0,
  117_00015245290534076375_017_00033325693878808776_017_00030803993583889844_117_00046014343049978595_016_00004092475341221299_116_00003338886116348349_115_00001224744871391589_0,
  117_00015245290534076375_017_00040065782439365477_116_00003334321916543309_116_00001993201487481394_016_00004563795776695363_116_00003338886116348349_015_00000816496580927726_0,
  117_00015245290534076375_017_00040065782439365477_016_00001853235288401937_116_00001993201487481394_017_00048780094003447394_116_00003338886116348349_115_00001224744871391589_0,
  117_00015245290534076375_017_00040065782439365477_016_00004307563428376032_117_00049023842454805255_016_00005349329835818804_116_00003338886116348349_015_00000816496580927726_0,
  117_00015245290534076375_017_00040065782439365477_016_00011056965813304793_116_00013930882459960594_016_00005663543459468179_116_00003338886116348349_015_00000816496580927726_0,
  117_00015245290534076375_016_00004680587099991834_117_00022744984015544953_117_00021938347811365091_016_00005977757083117555_116_00003338886116348349_115_00001224744871391589_0,
  117_00020244893896838492_017_00040065782439365477_016_00005757848238360724_117_00049023842454805255_016_00006449077518591619_116_00003338886116348349_015_00000816496580927726_0]

/-- lr/data.csv 7402-7501 -/
def dataCsv74 : List ℕ := [
  117_00020244893896838492_017_00040065782439365477_016_00005255826573366024_116_00005805234066928531_016_00006763291142240996_116_00003338886116348349_115_00001224744871391589_0,
  117_00010245687171311416_016_00005354595956047504_116_00007238934866502097_016_00011950812421548933_015_00000723461157771506_116_00003338886116348349_015_00000816496580927726_0,
  117_00010245687171311416_016_00005354595956047504_116_00004226804876533889_016_00003524214088034203_016_00007548825201364435_116_00003338886116348349_115_00001224744871391589_0,
  117_00010245687171311416_016_00005354595956047504_116_00009079680971482668_016_00008640363076239577_016_00008020145636838499_116_00003338886116348349_015_00000816496580927726_0,
  117_00010245687171311416_016_00005354595956047504_017_00007934117734131232_116_00007811567003479657_016_00008334359260487876_116_00003338886116348349_015_00000816496580927726_0,
  117_00010245687171311416_016_00005354595956047504_117_00004895324815733354_117_00048020675986529676_016_00008648572884137251_116_00003338886116348349_115_00001224744871391589_0,
  117_00010245687171311416_015_00000602860481210279_018_00034717029341783334_017_00007153479768626296_016_00009119893319611315_116_00003338886116348349_015_00000816496580927726_0,
  117_00010245687171311416_015_00000602860481210279_116_00006234891536512694_015_00000723593002065379_016_00009434106943260692_016_00029950108064592316_115_00001224744871391589_0,
  117_00005246083808549298_015_00000602860481210279_116_00013765216511433214_016_00011148279246928485_016_00010219641002384132_116_00003338886116348349_015_00000816496580927726_0,
  117_00010245687171311416_015_00000602860481210279_016_00030412690008100496_115_00002245779744030288_016_00010533854626033508_116_00003338886116348349_015_00000816496580927726_0,
  117_00005246083808549298_015_00000670261366815846_016_00011614767663298906_116_00012426132757547248_016_00010848068249682883_116_00003338886116348349_015_00000816496580927726_0,
  118_00002464804457843392_015_00000737662252421413_116_00006346451906511517_016_00007837829901619122_015_00001116228187333226_116_00003338886116348349_015_00000816496580927726_0,
  118_00002464804457843392_015_00000670261366815846_016_00005478947313363668_115_00000640713394789387_016_00011476495496981636_116_00003338886116348349_015_00000816496580927726_0,
  016_00000475312291698062_015_00000737662252421413_016_00004307563428376032_117_00048020675986529676_015_00001179070912063101_116_00003338886116348349_115_00001224744871391589_0,
  016_00000475312291698062_015_00000737662252421413_016_00004474903983374266_116_00006607767241548985_016_00012262029556105076_116_00003338886116348349_015_00000816496580927726_0,
  016_00000475312291698062_016_00008050631380269416_116_00002776520066549197_117_00008897183723782728_016_00012576243179754452_116_00003338886116348349_015_00000816496580927726_0,
  016_00000475312291698062_016_00008050631380269416_116_00004840386911527413_017_00024207309729310825_016_00012890456803403827_116_00003338886116348349_115_00001224744871391589_0,
  016_00000475312291698062_016_00008724640236325086_116_00002441838956552729_017_00010162979173452956_016_00013361777238877892_116_00003338886116348349_115_00001224744871391589_0,
  017_00009752726279742736_016_00009398649092380373_116_00006234891536512694_118_00028781849141293357_016_00013833097674351955_116_00003338886116348349_115_00001224744871391589_0,
  016_00000475312291698062_016_00009398649092380373_016_00001853235288401937_117_00037989011303774045_015_00001430441810982602_116_00003338886116348349_015_00000816496580927726_0,
  016_00000475312291698062_016_00008724640236325086_017_00004587306634166558_019_00013131449069732513_016_00014618631733475396_116_00003338886116348349_015_00000816496580927726_0,
  016_00000475312291698062_016_00009398649092380373_115_00001097620726146265_016_00008540046429412019_016_00014932845357124773_116_00003338886116348349_115_00001224744871391589_0,
  118_00002464804457843392_016_00008050631380269416_116_00010474185596467949_016_00004126113968999543_016_00015404165792598836_116_00003338886116348349_015_00000816496580927726_0,
  118_00002464804457843392_016_00008724640236325086_116_00007350495236500919_016_00007336246667481341_016_00015718379416248212_116_00003338886116348349_015_00000816496580927726_0,
  016_00000475312291698062_016_00009398649092380373_017_00020205758434001708_115_00001021916652734101_015_00001603259303989759_116_00003338886116348349_115_00001224744871391589_0,
  118_00002464804457843392_016_00009398649092380373_013_00000014069095803273_115_00001593721539651172_016_00016503913475371652_116_00003338886116348349_115_00001224744871391589_0,
  118_00002464804457843392_016_00009398649092380373_016_00008546857488331286_116_00011021699701961463_016_00016975233910845717_116_00003338886116348349_115_00001224744871391589_1,
  118_00002464804457843392_016_00009398649092380373_016_00005311606758365435_115_00000811251694396233_116_00016959837443286896_116_00003338886116348349_015_00000816496580927726_0,
  118_00002464804457843392_016_00009398649092380373_016_00018141049308230022_116_00016739748571132171_116_00016645623819637518_116_00003338886116348349_115_00001224744871391589_0,
  118_00002464804457843392_016_00009398649092380373_017_00028572786183913396_115_00000640713394789387_116_00016174303384163455_116_00003338886116348349_015_00000816496580927726_0,
  118_00002464804457843392_016_00009398649092380373_116_00008633439491487378_016_00006132446905550669_116_00015860089760514078_116_00003338886116348349_115_00001224744871391589_0,
  118_00002464804457843392_016_00009398649092380373_116_00010418405411468539_016_00021882160457477005_116_00015388769325040015_116_00003338886116348349_115_00001224744871391589_0,
  016_00000475312291698062_016_00009398649092380373_117_00030554209915462527_015_00000312294750072398_115_00001491744888956595_116_00003338886116348349_015_00000816496580927726_0,
  016_00000475312291698062_016_00009398649092380373_015_00002087427837320117_116_00018144181626717961_116_00014603235265916574_116_00003338886116348349_115_00001224744871391589_0,
  118_00002464804457843392_016_00009398649092380373_116_00001716696551560383_117_00017925681938262783_116_00014131914830442511_116_00003338886116348349_015_00000816496580927726_0,
  117_00005246083808549298_016_00008724640236325086_117_00019398172915580278_017_00007153479768626296_116_00013817701206793134_116_00003338886116348349_015_00000816496580927726_0,
  118_00002464804457843392_016_00009398649092380373_116_00002888080436548019_017_00012169312110004112_116_00013503487583143758_116_00003338886116348349_015_00000816496580927726_0,
  117_00010245687171311416_016_00008724640236325086_015_00001049916396331068_116_00010018533233685898_116_00013189273959494383_116_00003338886116348349_015_00000816496580927726_0,
  117_00005246083808549298_016_00008724640236325086_016_00006036749163357781_116_00012526449404374806_116_00012875060335845006_116_00003338886116348349_015_00000816496580927726_0,
  118_00002464804457843392_016_00008724640236325086_117_00025533993265515514_017_00014175645046555194_115_00001256084671219563_116_00003338886116348349_015_00000816496580927726_0,
  118_00002464804457843392_016_00009398649092380373_015_00000648299064335307_116_00010419799820996123_116_00012246633088546255_116_00003338886116348349_015_00000816496580927726_0,
  117_00005246083808549298_016_00009398649092380373_116_00011255108186459706_016_00014859995179548064_116_00011932419464896877_116_00003338886116348349_115_00001224744871391589_0,
  118_00002464804457843392_016_00010072657948436043_017_00034708606533848635_117_00030966846025845146_116_00011461099029422814_116_00003338886116348349_015_00000816496580927726_0,
  016_00000475312291698062_016_00010746666804491714_017_00028014984333919285_117_00020935181343089515_115_00001114688540577344_016_00029950108064592316_115_00001224744871391589_0,
  017_00009752726279742736_013_00000011420675660547_115_00001409989762142968_016_00015160945120030738_116_00010361351346649998_116_00003338886116348349_015_00000816496580927726_0,
  017_00009752726279742736_013_00000011420675660547_017_00007934117734131232_017_00013172478578279617_116_00010047137723000623_116_00003338886116348349_015_00000816496580927726_0,
  017_00009752726279742736_015_00001209468451660267_116_00008912340416484434_016_00011047962600100927_116_00009732924099351247_116_00003338886116348349_015_00000816496580927726_0,
  017_00014752329642507697_016_00012768693372657955_016_00007710154713340118_116_00009216000059065448_115_00000941871047570187_116_00003338886116348349_115_00001224744871391589_0,
  017_00014752329642507697_015_00001209468451660267_116_00002832300251548608_115_00000159193490017117_116_00008947390040227806_116_00003338886116348349_015_00000816496580927726_0,
  017_00014752329642507697_015_00001209468451660267_116_00006736913201507395_016_00005931813611895553_115_00000863317641657843_116_00003338886116348349_015_00000816496580927726_0,
  017_00014752329642507697_015_00001209468451660267_116_00004896167096526824_017_00010162979173452956_116_00008318962792929054_116_00003338886116348349_015_00000816496580927726_0,
  017_00014752329642507697_015_00001209468451660267_116_00001716696551560383_015_00000312294750072398_116_00008004749169279678_116_00003338886116348349_015_00000816496580927726_0,
  017_00014752329642507697_013_00000011420675660547_016_00002243696583397816_115_00000640713394789387_116_00007690535545630302_116_00003338886116348349_015_00000816496580927726_0,
  017_00014752329642507697_013_00000011420675660547_116_00005955990611515638_016_00007737513254791571_116_00007376321921980926_016_00029950108064592316_115_00001224744871391589_0,
  017_00009752726279742736_016_00010746666804491714_116_00005175068021523881_016_00007336246667481341_116_00006590787862857486_116_00003338886116348349_015_00000816496580927726_0,
  017_00009752726279742736_013_00000011420675660547_016_00003247739913387218_117_00004884517850680491_115_00000627657423920811_116_00003338886116348349_115_00001224744871391589_0,
  017_00009752726279742736_013_00000011420675660547_116_00007908297086495032_015_00001024542942548048_116_00005805253803734046_116_00003338886116348349_115_00001224744871391589_0,
  016_00000475312291698062_016_00010746666804491714_117_00004895324815733354_117_00033976345430671806_116_00005333933368259982_116_00003338886116348349_015_00000816496580927726_0,
  016_00000475312291698062_016_00010746666804491714_116_00005900210426516227_016_00011449229187411152_116_00005019719744610606_116_00003338886116348349_115_00001224744871391589_0,
  118_00002464804457843392_016_00010072657948436043_017_00029130588033907506_116_00008012200297134773_117_00045483993091365416_116_00003338886116348349_015_00000816496580927726_0,
  118_00002464804457843392_016_00010072657948436043_116_00005230848206523292_016_00001618197798310635_117_00042341856854871657_116_00003338886116348349_015_00000816496580927726_0,
  118_00002464804457843392_016_00010072657948436043_016_00011726328033297728_116_00011723916229754356_115_00000391997206183779_116_00003338886116348349_015_00000816496580927726_0,
  118_00002464804457843392_016_00008724640236325086_015_00000916043952332481_116_00009617266646375675_117_00036057584381884134_116_00003338886116348349_015_00000816496580927726_0,
  016_00000475312291698062_016_00009398649092380373_117_00011588947015662704_016_00006934980080171117_117_00032915448145390375_016_00029950108064592316_115_00001224744871391589_0,
  016_00000475312291698062_016_00008724640236325086_118_00021063155657627917_017_00023204143261035248_117_00025060107554155975_116_00003338886116348349_015_00000816496580927726_0,
  016_00000475312291698062_016_00009398649092380373_115_00000829875838149091_016_00012151445715204048_117_00021917971317662216_116_00003338886116348349_115_00001224744871391589_0,
  017_00014752329642507697_016_00010746666804491714_016_00014626897653267112_114_00000164387986306495_117_00017204766962921575_016_00029950108064592316_115_00001224744871391589_0,
  017_00014752329642507697_016_00010746666804491714_116_00004226804876533889_016_00001618197798310635_117_00009349426371687174_016_00029950108064592316_115_00001224744871391589_0,
  017_00014752329642507697_016_00010746666804491714_017_00011838730684090021_117_00022941514279640599_118_00014940857804527726_116_00003338886116348349_015_00000816496580927726_0,
  017_00014752329642507697_016_00010746666804491714_016_00003805541763381331_116_00006507450594721428_018_00016480504560409875_116_00003338886116348349_015_00000816496580927726_0,
  017_00019751933005269812_016_00010746666804491714_116_00011534009111456762_016_00014659361885892956_017_00004790186692534748_116_00003338886116348349_015_00000816496580927726_0,
  017_00014752329642507697_013_00000011420675660547_116_00009693263006476192_016_00013355245477134718_017_00007932322929028508_116_00003338886116348349_015_00000816496580927726_0,
  017_00014752329642507697_016_00010746666804491714_017_00043633436133754433_116_00007510617062996991_017_00011074459165522269_116_00003338886116348349_115_00001224744871391589_0,
  017_00014752329642507697_016_00010746666804491714_116_00013095854291440279_016_00022885326925752567_016_00001578766352026291_116_00003338886116348349_115_00001224744871391589_0,
  017_00014752329642507697_013_00000011420675660547_016_00025113572433156426_116_00017742915039407734_016_00002050086787500355_116_00003338886116348349_015_00000816496580927726_0,
  017_00014752329642507697_016_00010746666804491714_116_00011143547816460884_016_00013455562123962277_016_00002364300411149731_016_00029950108064592316_115_00001224744871391589_0,
  017_00009752726279742736_016_00010072657948436043_116_00002609179511550963_017_00018188310919657433_016_00003149834470273171_116_00003338886116348349_015_00000816496580927726_0,
  016_00000475312291698062_016_00008724640236325086_117_00011588947015662704_018_00021376474272484798_016_00003464048093922547_116_00003338886116348349_115_00001224744871391589_0,
  016_00000475312291698062_016_00008724640236325086_116_00003334321916543309_117_00004884517850680491_016_00003935368529396611_116_00003338886116348349_015_00000816496580927726_0,
  016_00000475312291698062_016_00008724640236325086_117_00008799937765692141_116_00005905550713756088_016_00004249582153045987_116_00003338886116348349_115_00001224744871391589_0,
  017_00009752726279742736_016_00009398649092380373_017_00017416749184031147_116_00004701750951825417_016_00004720902588520051_116_00003338886116348349_115_00001224744871391589_0,
  017_00009752726279742736_016_00009398649092380373_117_00018282569215592054_117_00038992177772049624_016_00005192223023994115_016_00029950108064592316_115_00001224744871391589_0,
  017_00009752726279742736_016_00010746666804491714_117_00016051361815615603_016_00007536879961136456_016_00005977757083117555_116_00003338886116348349_115_00001224744871391589_0,
  017_00009752726279742736_016_00010746666804491714_016_00007375473603343651_116_00011222332995616573_016_00006449077518591619_116_00003338886116348349_015_00000816496580927726_0,
  017_00014752329642507697_016_00010746666804491714_116_00012649612811444988_016_00013455562123962277_016_00006763291142240996_116_00003338886116348349_115_00001224744871391589_0,
  017_00014752329642507697_016_00010746666804491714_016_00003136179543388396_116_00001190668312860946_015_00000723461157771506_116_00003338886116348349_015_00000816496580927726_0,
  017_00014752329642507697_013_00000011420675660547_016_00005367386943364846_116_00008212833590789884_016_00007548825201364435_116_00003338886116348349_015_00000816496580927726_0,
  017_00014752329642507697_013_00000011420675660547_016_00009383560263322456_115_00000640713394789387_016_00007863038825013812_116_00003338886116348349_015_00000816496580927726_0,
  017_00014752329642507697_013_00000011420675660547_018_00034717029341783334_016_00003524214088034203_016_00008177252448663187_116_00003338886116348349_015_00000816496580927726_0,
  017_00009752726279742736_016_00010746666804491714_015_00001183788840329655_116_00012024866170237025_016_00008491466072312563_116_00003338886116348349_115_00001224744871391589_0,
  017_00019751933005269812_015_00001209468451660267_016_00009383560263322456_116_00010018533233685898_016_00008962786507786628_116_00003338886116348349_115_00001224744871391589_0,
  017_00019751933005269812_015_00001209468451660267_116_00012203371331449697_015_00001796981123120231_016_00009434106943260692_116_00003338886116348349_015_00000816496580927726_0,
  017_00014752329642507697_013_00000011420675660547_115_00001225915151644911_016_00011449229187411152_016_00009748320566910068_116_00003338886116348349_115_00001224744871391589_0,
  017_00009752726279742736_013_00000011420675660547_116_00005063507651525058_016_00014258095298582731_016_00010219641002384132_116_00003338886116348349_015_00000816496580927726_0,
  017_00009752726279742736_015_00001209468451660267_116_00005732869871517993_016_00008239096488929353_016_00010533854626033508_116_00003338886116348349_015_00000816496580927726_0,
  017_00014752329642507697_016_00012768693372657955_016_00003917102133380153_116_00006005867360583647_016_00010848068249682883_116_00003338886116348349_015_00000816496580927726_0,
  017_00009752726279742736_015_00001209468451660267_116_00004171024691534478_017_00045273805563097663_015_00001116228187333226_116_00003338886116348349_015_00000816496580927726_0,
  017_00014752329642507697_015_00001209468451660267_117_00031112011765456643_016_00005129280437275106_016_00011476495496981636_116_00003338886116348349_115_00001224744871391589_0,
  017_00009752726279742736_015_00001209468451660267_016_00011670547848298316_116_00011523282936099244_014_00000119478159324557_116_00003338886116348349_115_00001224744871391589_0,
  017_00014752329642507697_015_00001209468451660267_016_00011558987478299494_116_00013730249166305482_016_00012419136367929764_116_00003338886116348349_015_00000816496580927726_0]

/-- lr/data.csv 7502-7601 -/
def dataCsv75 : List ℕ := [
  017_00009752726279742736_015_00001209468451660267_116_00007183154681502685_016_00011449229187411152_015_00001273334999157914_116_00003338886116348349_015_00000816496580927726_0,
  017_00009752726279742736_013_00000011420675660547_016_00005646287868361902_116_00009216000059065448_016_00013047563615228517_116_00003338886116348349_015_00000816496580927726_0,
  017_00014752329642507697_013_00000011420675660547_015_00000648299064335307_116_00010118849880513456_016_00013361777238877892_016_00029950108064592316_115_00001224744871391589_0,
  017_00014752329642507697_013_00000011420675660547_015_00000598096897835837_115_00001112201634878902_016_00014147311298001333_116_00003338886116348349_115_00001224744871391589_0,
  017_00019751933005269812_015_00001209468451660267_017_00028014984333919285_017_00020194643856208588_016_00014618631733475396_116_00003338886116348349_015_00000816496580927726_0,
  016_00002475153636803477_016_00012768693372657955_018_00040295047841724455_117_00005887684318956068_016_00014932845357124773_116_00003338886116348349_015_00000816496580927726_0,
  016_00002475153636803477_016_00012768693372657955_117_00015493559965621492_017_00018188310919657433_016_00015247058980774149_116_00003338886116348349_015_00000816496580927726_0,
  016_00002475153636803477_016_00012768693372657955_015_00001178210821829714_116_00011723916229754356_016_00015561272604423524_116_00003338886116348349_015_00000816496580927726_0,
  016_00002475153636803477_016_00012768693372657955_016_00010666504518308915_116_00012526449404374806_014_00000158754862280729_116_00003338886116348349_115_00001224744871391589_0,
  016_00002975113973079973_016_00012768693372657955_116_00009302801711480313_016_00020176777461408553_016_00016346806663546964_116_00003338886116348349_015_00000816496580927726_1,
  016_00002475153636803477_015_00001209468451660267_117_00008242135915698029_117_00010903516660333884_015_00001666102028719634_116_00003338886116348349_015_00000816496580927726_1,
  017_00019751933005269812_015_00001209468451660267_017_00034708606533848635_117_00038992177772049624_116_00016959837443286896_116_00003338886116348349_015_00000816496580927726_0,
  016_00002475153636803477_015_00001209468451660267_016_00005423167128364257_116_00005604600773273423_116_00016645623819637518_116_00003338886116348349_115_00001224744871391589_0,
  017_00019751933005269812_015_00001209468451660267_015_00004028578275299629_114_00000251663469046469_116_00016174303384163455_116_00003338886116348349_015_00000816496580927726_0,
  017_00019751933005269812_015_00001209468451660267_016_00005423167128364257_116_00007711250356652106_116_00015860089760514078_116_00003338886116348349_015_00000816496580927726_0,
  017_00019751933005269812_016_00012768693372657955_116_00011366668556458528_016_00018371077818512536_116_00015545876136864702_116_00003338886116348349_115_00001224744871391589_0,
  017_00014752329642507697_013_00000011420675660547_116_00016888906871400242_016_00017568544643892088_115_00001507455570139064_116_00003338886116348349_115_00001224744871391589_0,
  017_00014752329642507697_013_00000011420675660547_116_00005230848206523292_016_00007336246667481341_116_00014603235265916574_116_00003338886116348349_015_00000816496580927726_0,
  017_00009752726279742736_016_00010072657948436043_116_00002162938031555673_017_00008156646236901802_114_00000142890216422672_116_00003338886116348349_015_00000816496580927726_0,
  017_00009752726279742736_016_00010746666804491714_015_00002567137428315054_116_00019047031448165967_116_00013974808018617824_116_00003338886116348349_015_00000816496580927726_0,
  017_00009752726279742736_016_00010746666804491714_117_00005453126665727467_117_00045011176581703016_116_00013660594394968446_116_00003338886116348349_015_00000816496580927726_0,
  017_00009752726279742736_016_00010746666804491714_116_00004003684136536244_017_00007153479768626296_115_00001334638077131907_116_00003338886116348349_115_00001224744871391589_0,
  016_00000475312291698062_016_00010072657948436043_115_00001142244874145794_016_00014057462004927617_116_00012875060335845006_116_00003338886116348349_015_00000816496580927726_0,
  016_00000475312291698062_016_00010072657948436043_115_00001092042707646324_016_00006232763552378227_115_00001256084671219563_116_00003338886116348349_115_00001224744871391589_0,
  017_00009752726279742736_016_00010072657948436043_016_00005590507683362491_116_00008915050118582778_116_00012089526276721567_116_00003338886116348349_015_00000816496580927726_0,
  016_00000475312291698062_016_00010072657948436043_116_00008689219676486789_016_00009141946310377358_115_00001177531265307219_016_00029950108064592316_115_00001224744871391589_0,
  016_00000475312291698062_016_00009398649092380373_016_00006761891568350127_116_00008614100178100111_116_00010989778593948751_116_00003338886116348349_015_00000816496580927726_0,
  016_00000475312291698062_016_00008724640236325086_117_00038363435815380104_016_00005229597084102664_116_00010675564970299374_116_00003338886116348349_015_00000816496580927726_0,
  016_00000475312291698062_016_00008724640236325086_016_00011670547848298316_116_00013429299225822813_116_00010361351346649998_116_00003338886116348349_115_00001224744871391589_0,
  016_00000475312291698062_016_00009398649092380373_116_00004003684136536244_117_00043004843645151863_116_00009890030911175934_116_00003338886116348349_015_00000816496580927726_0,
  016_00000475312291698062_016_00009398649092380373_017_00043633436133754433_117_00006890850787231645_116_00009575817287526558_116_00003338886116348349_115_00001224744871391589_0,
  016_00000475312291698062_016_00009398649092380373_116_00009023900786483257_015_00001676601146927164_116_00009104496852052494_016_00029950108064592316_115_00001224744871391589_0,
  118_00002464804457843392_016_00008724640236325086_016_00005032705833368378_116_00007911883650307214_116_00008318962792929054_116_00003338886116348349_115_00001224744871391589_0,
  118_00002464804457843392_016_00008050631380269416_117_00019398172915580278_117_00020935181343089515_115_00000784764235745499_116_00003338886116348349_015_00000816496580927726_0,
  118_00002464804457843392_016_00008050631380269416_116_00006736913201507395_016_00007336246667481341_116_00007533428733805614_116_00003338886116348349_015_00000816496580927726_0,
  118_00002464804457843392_016_00008050631380269416_016_00005032705833368378_116_00008313150237617443_116_00007219215110156237_116_00003338886116348349_015_00000816496580927726_0,
  016_00000475312291698062_016_00008724640236325086_015_00005802388158280906_115_00002757394642850825_116_00006905001486506862_116_00003338886116348349_015_00000816496580927726_1,
  016_00000475312291698062_016_00008724640236325086_116_00013040074106440867_016_00024791343215476145_116_00006590787862857486_116_00003338886116348349_015_00000816496580927726_0,
  017_00009752726279742736_016_00009398649092380373_117_00049519472815262355_117_00014916182533436123_115_00000627657423920811_116_00003338886116348349_115_00001224744871391589_0,
  017_00009752726279742736_016_00008724640236325086_116_00002888080436548019_117_00030966846025845146_116_00005805253803734046_116_00003338886116348349_015_00000816496580927726_0,
  017_00009752726279742736_016_00008724640236325086_016_00002689938063393106_116_00008814733471755224_115_00000549104018008467_116_00003338886116348349_115_00001224744871391589_0,
  017_00014752329642507697_016_00010072657948436043_118_00060109285157215794_016_00000915981270517738_116_00005019719744610606_116_00003338886116348349_115_00001224744871391589_0,
  017_00019751933005269812_016_00010746666804491714_116_00007685176346497387_016_00009944479484997806_117_00045483993091365416_116_00003338886116348349_115_00001224744871391589_0,
  017_00014752329642507697_016_00010072657948436043_116_00005175068021523881_016_00005028963790447548_117_00040770788736624775_116_00003338886116348349_015_00000816496580927726_0,
  017_00009752726279742736_016_00009398649092380373_116_00006346451906511517_017_00042264306158271003_117_00037628652500131016_116_00003338886116348349_015_00000816496580927726_0,
  017_00009752726279742736_016_00009398649092380373_016_00019647114303214126_116_00017441965098925065_117_00034486516263637257_116_00003338886116348349_015_00000816496580927726_0,
  017_00009752726279742736_016_00010072657948436043_115_00000472882654152859_017_00028219975602413067_115_00000313443800271435_016_00029950108064592316_115_00001224744871391589_0,
  016_00000475312291698062_016_00009398649092380373_115_00000606755098151446_016_00000915981270517738_117_00023489039435909095_116_00003338886116348349_015_00000816496580927726_0,
  017_00009752726279742736_016_00009398649092380373_116_00002441838956552729_016_00003624530734861761_117_00020346903199415334_116_00003338886116348349_015_00000816496580927726_0,
  017_00014752329642507697_016_00009398649092380373_018_00029139010841842207_016_00001618197798310635_117_00017204766962921575_116_00003338886116348349_015_00000816496580927726_0,
  017_00014752329642507697_016_00009398649092380373_017_00008491919584125346_115_00000570491742010098_117_00014062630726427813_116_00003338886116348349_115_00001224744871391589_0,
  017_00009752726279742736_016_00008724640236325086_116_00002664959696550374_117_00026954180152742907_117_00009349426371687174_116_00003338886116348349_115_00001224744871391589_0,
  017_00014752329642507697_016_00008724640236325086_117_00007684334065703917_017_00007153479768626296_118_00046362220169465326_116_00003338886116348349_015_00000816496580927726_0,
  017_00014752329642507697_016_00008724640236325086_117_00018840371065586167_117_00003881351382404913_118_00014940857804527726_116_00003338886116348349_015_00000816496580927726_0,
  017_00014752329642507697_016_00009398649092380373_116_00009358581896479724_015_00001024542942548048_018_00016480504560409875_116_00003338886116348349_115_00001224744871391589_0,
  017_00014752329642507697_016_00008724640236325086_116_00011534009111456762_016_00020578044048718778_017_00006361254810781627_116_00003338886116348349_015_00000816496580927726_0,
  017_00014752329642507697_016_00009398649092380373_117_00037805633965385993_117_00029963679557569567_017_00009503391047275388_116_00003338886116348349_015_00000816496580927726_0,
  017_00019751933005269812_016_00010072657948436043_015_00001178210821829714_115_00001272708269802992_017_00012645527283769148_116_00003338886116348349_115_00001224744871391589_0,
  017_00014752329642507697_016_00009398649092380373_116_00008521879121488555_016_00008138779842101795_016_00001735873163850979_116_00003338886116348349_115_00001224744871391589_0,
  017_00019751933005269812_016_00009398649092380373_116_00010251064856470304_016_00016264428235133859_016_00002207193599325043_116_00003338886116348349_115_00001224744871391589_0,
  017_00014752329642507697_016_00008724640236325086_116_00009023900786483257_016_00013856828711272502_016_00002678514034799107_116_00003338886116348349_115_00001224744871391589_0,
  017_00014752329642507697_015_00000737662252421413_116_00008410318751489733_016_00009442896250860024_016_00003149834470273171_116_00003338886116348349_015_00000816496580927726_0,
  017_00014752329642507697_015_00000737662252421413_115_00001052996578146736_016_00018772344405822765_016_00003464048093922547_116_00003338886116348349_115_00001224744871391589_0,
  017_00019751933005269812_016_00008050631380269416_015_00001630030320324945_116_00016639431924304617_016_00003935368529396611_116_00003338886116348349_115_00001224744871391589_0,
  017_00014752329642507697_016_00008050631380269416_116_00008800780046485611_016_00025292926449613926_017_00044066889648706753_116_00003338886116348349_115_00001224744871391589_1,
  017_00014752329642507697_016_00008050631380269416_015_00001362285432327771_116_00014432465694098375_017_00048780094003447394_116_00003338886116348349_115_00001224744871391589_0,
  017_00014752329642507697_015_00000670261366815846_017_00041402228733777985_115_00000530365083279075_016_00005349329835818804_116_00003338886116348349_015_00000816496580927726_0,
  017_00009752726279742736_015_00000670261366815846_015_00004636582291793212_116_00025366980198302014_016_00005663543459468179_116_00003338886116348349_115_00001224744871391589_0,
  017_00009752726279742736_015_00000670261366815846_017_00049211454633695556_116_00006306817301066312_016_00006134863894942243_116_00003338886116348349_015_00000816496580927726_0,
  017_00009752726279742736_015_00000670261366815846_116_00015829083356411429_015_00003191382514023264_016_00006449077518591619_116_00003338886116348349_015_00000816496580927726_1,
  017_00009752726279742736_015_00000670261366815846_016_00013288173213281242_116_00012526449404374806_016_00006763291142240996_016_00029950108064592316_115_00001224744871391589_0,
  017_00014752329642507697_015_00000737662252421413_017_00037497615783819194_116_00009115683412237894_016_00007548825201364435_116_00003338886116348349_015_00000816496580927726_0,
  017_00014752329642507697_015_00000737662252421413_016_00007654374528340707_116_00011422966289271685_016_00007863038825013812_116_00003338886116348349_015_00000816496580927726_0,
  017_00014752329642507697_015_00000737662252421413_017_00036939813933825083_117_00028960513089293993_016_00008177252448663187_116_00003338886116348349_015_00000816496580927726_0,
  017_00019751933005269812_015_00000737662252421413_116_00002888080436548019_116_00002595101368446733_016_00008491466072312563_116_00003338886116348349_015_00000816496580927726_0,
  017_00019751933005269812_016_00008050631380269416_117_00037805633965385993_016_00006533713492860893_015_00000880567969596194_116_00003338886116348349_015_00000816496580927726_0,
  017_00014752329642507697_015_00000737662252421413_116_00003445882286542132_017_00042264306158271003_016_00009119893319611315_116_00003338886116348349_115_00001224744871391589_0,
  017_00019751933005269812_016_00008050631380269416_117_00004895324815733354_116_00008012200297134773_016_00009591213755085379_116_00003338886116348349_015_00000816496580927726_0,
  017_00019751933005269812_016_00008050631380269416_016_00007487033973342473_115_00001112201634878902_016_00009905427378734756_116_00003338886116348349_015_00000816496580927726_0,
  017_00019751933005269812_016_00008050631380269416_116_00005732869871517993_015_00001686632811609919_016_00010219641002384132_116_00003338886116348349_015_00000816496580927726_0,
  017_00019751933005269812_016_00008724640236325086_116_00002441838956552729_016_00011248595893756042_016_00010533854626033508_116_00003338886116348349_015_00000816496580927726_0,
  017_00019751933005269812_016_00008050631380269416_115_00000963748282147678_014_00000161641115883063_016_00010848068249682883_116_00003338886116348349_115_00001224744871391589_0,
  017_00019751933005269812_016_00008050631380269416_116_00002776520066549197_016_00005329913730930215_016_00011319388685156948_016_00029950108064592316_115_00001224744871391589_0,
  017_00014752329642507697_015_00000737662252421413_116_00003278541731543898_015_00000663403013968845_016_00012104922744280389_116_00003338886116348349_015_00000816496580927726_0,
  017_00019751933005269812_016_00008050631380269416_117_00037247832115391877_117_00026954180152742907_016_00012419136367929764_116_00003338886116348349_015_00000816496580927726_0,
  017_00019751933005269812_015_00000737662252421413_116_00007908297086495032_016_00010847329306445812_015_00001273334999157914_116_00003338886116348349_015_00000816496580927726_0,
  017_00019751933005269812_015_00000737662252421413_017_00028014984333919285_117_00045011176581703016_016_00013047563615228517_116_00003338886116348349_015_00000816496580927726_0,
  017_00019751933005269812_015_00000737662252421413_116_00007462055606499741_016_00014157778651755175_016_00013361777238877892_116_00003338886116348349_015_00000816496580927726_0,
  017_00019751933005269812_015_00000737662252421413_016_00026452296873142296_116_00019949881269613972_016_00013675990862527267_116_00003338886116348349_015_00000816496580927726_0,
  017_00019751933005269812_015_00000670261366815846_016_00014682677838266525_115_00001403119910678815_016_00013990204486176645_116_00003338886116348349_015_00000816496580927726_0,
  017_00019751933005269812_015_00000670261366815846_116_00005900210426516227_016_00006132446905550669_015_00001430441810982602_116_00003338886116348349_115_00001224744871391589_0,
  016_00002475153636803477_015_00000737662252421413_116_00013542095771435567_016_00021380577223339223_016_00014775738545300083_116_00003338886116348349_115_00001224744871391589_1,
  016_00002475153636803477_016_00008050631380269416_017_00006818514034143008_117_00033976345430671806_016_00015247058980774149_116_00003338886116348349_115_00001224744871391589_0,
  016_00002475153636803477_016_00008050631380269416_115_00001499238058142026_015_00002760020932664772_016_00015718379416248212_116_00003338886116348349_015_00000816496580927726_1,
  016_00002975113973079973_016_00008724640236325086_117_00004337522965739242_117_00014916182533436123_116_00016959837443286896_116_00003338886116348349_015_00000816496580927726_0,
  016_00002475153636803477_016_00008050631380269416_116_00007908297086495032_016_00005229597084102664_116_00016645623819637518_016_00029950108064592316_115_00001224744871391589_0,
  016_00002475153636803477_015_00000737662252421413_017_00004587306634166558_117_00027957346621018414_116_00015860089760514078_116_00003338886116348349_015_00000816496580927726_0,
  016_00002475153636803477_015_00000670261366815846_016_00029854888158106383_115_00002115368103154465_116_00015545876136864702_116_00003338886116348349_015_00000816496580927726_0,
  016_00002475153636803477_015_00000737662252421413_116_00002664959696550374_016_00002621364266586198_116_00015231662513215327_116_00003338886116348349_015_00000816496580927726_0,
  016_00002475153636803477_015_00000670261366815846_015_00001228412988329184_116_00011723916229754356_115_00001491744888956595_116_00003338886116348349_015_00000816496580927726_0]

/-- lr/data.csv 7602-7701 -/
def dataCsv76 : List ℕ := [
  017_00019751933005269812_015_00000670261366815846_016_00003136179543388396_117_00046014343049978595_116_00014603235265916574_116_00003338886116348349_115_00001224744871391589_0,
  017_00019751933005269812_016_00008050631380269416_116_00010474185596467949_015_00002208279375113212_116_00014131914830442511_116_00003338886116348349_015_00000816496580927726_0,
  017_00019751933005269812_016_00008050631380269416_016_00009271999893323634_116_00011322649642444131_116_00013817701206793134_116_00003338886116348349_015_00000816496580927726_0,
  017_00019751933005269812_016_00008050631380269416_115_00000740627542150033_016_00003624530734861761_116_00013503487583143758_116_00003338886116348349_015_00000816496580927726_0,
  017_00019751933005269812_016_00008724640236325086_016_00005590507683362491_116_00005403967479618307_116_00013189273959494383_116_00003338886116348349_015_00000816496580927726_0,
  017_00019751933005269812_016_00008724640236325086_016_00027177439278134643_116_00019749247975958861_116_00012875060335845006_016_00029950108064592316_115_00001224744871391589_0,
  017_00019751933005269812_016_00008724640236325086_115_00001052996578146736_016_00016565378175616523_116_00012089526276721567_116_00003338886116348349_115_00001224744871391589_0,
  016_00002475153636803477_016_00008724640236325086_116_00003947903951536833_017_00011166145641728534_116_00011618205841247502_116_00003338886116348349_115_00001224744871391589_0,
  016_00002475153636803477_016_00009398649092380373_016_00005757848238360724_116_00012927715991685031_115_00001114688540577344_116_00003338886116348349_015_00000816496580927726_0,
  016_00002475153636803477_016_00008724640236325086_116_00002720739881549785_017_00018188310919657433_116_00010832671782124061_116_00003338886116348349_015_00000816496580927726_0,
  016_00002475153636803477_016_00008724640236325086_116_00001772476736559794_016_00003423897441206646_116_00010518458158474686_116_00003338886116348349_115_00001224744871391589_0,
  016_00002475153636803477_016_00009398649092380373_016_00004028662503378976_116_00007309983769341876_116_00010047137723000623_116_00003338886116348349_015_00000816496580927726_0,
  016_00002475153636803477_016_00009398649092380373_015_00001139164692330126_116_00012426132757547248_116_00009732924099351247_116_00003338886116348349_115_00001224744871391589_0,
  016_00002475153636803477_016_00008724640236325086_116_00003557442656540954_016_00006333080199205777_116_00009261603663877183_116_00003338886116348349_015_00000816496580927726_0,
  016_00002475153636803477_016_00009398649092380373_116_00005955990611515638_016_00007536879961136456_116_00008947390040227806_116_00003338886116348349_015_00000816496580927726_0,
  016_00002475153636803477_016_00009398649092380373_116_00005398188761521525_016_00007035296726998674_115_00000863317641657843_116_00003338886116348349_015_00000816496580927726_0,
  016_00002975113973079973_016_00009398649092380373_116_00003947903951536833_017_00004143980363799563_116_00008318962792929054_116_00003338886116348349_115_00001224744871391589_0,
  016_00002475153636803477_016_00009398649092380373_016_00000960752328411357_016_00005329913730930215_115_00000784764235745499_116_00003338886116348349_015_00000816496580927726_0,
  016_00002475153636803477_016_00009398649092380373_116_00012649612811444988_016_00011449229187411152_116_00007533428733805614_116_00003338886116348349_115_00001224744871391589_0,
  016_00002975113973079973_016_00010072657948436043_117_00044499256165315343_016_00007035296726998674_115_00000706210829833155_116_00003338886116348349_015_00000816496580927726_0,
  016_00002475153636803477_016_00010072657948436043_016_00006259869903355426_117_00030966846025845146_116_00006747894674682174_116_00003338886116348349_015_00000816496580927726_0,
  016_00002475153636803477_016_00010072657948436043_116_00002720739881549785_115_00000159193490017117_116_00006433681051032798_116_00003338886116348349_015_00000816496580927726_0,
  016_00002975113973079973_016_00010746666804491714_117_00036690030265397766_116_00008513783531272554_116_00006119467427383422_116_00003338886116348349_115_00001224744871391589_0,
  016_00002975113973079973_013_00000011420675660547_015_00001088962525830656_116_00010118849880513456_116_00005648146991909357_116_00003338886116348349_015_00000816496580927726_0,
  016_00002975113973079973_013_00000011420675660547_116_00001772476736559794_016_00005530547024585329_116_00005333933368259982_116_00003338886116348349_015_00000816496580927726_0,
  016_00002975113973079973_013_00000011420675660547_016_00000960752328411357_116_00005103017539135641_116_00005019719744610606_116_00003338886116348349_015_00000816496580927726_0,
  016_00002475153636803477_016_00010746666804491714_116_00010474185596467949_016_00013555878770789835_115_00000470550612096123_016_00029950108064592316_115_00001224744871391589_0,
  016_00002475153636803477_013_00000011420675660547_116_00005230848206523292_016_00004828330496792433_115_00000391997206183779_116_00003338886116348349_015_00000816496580927726_0,
  016_00002475153636803477_013_00000011420675660547_016_00004474903983374266_116_00007309983769341876_117_00036057584381884134_116_00003338886116348349_015_00000816496580927726_0,
  016_00002475153636803477_013_00000011420675660547_116_00015048160766419671_016_00024089126687683247_117_00032915448145390375_116_00003338886116348349_115_00001224744871391589_0,
  016_00002475153636803477_016_00010746666804491714_117_00002664117415756904_117_00022941514279640599_117_00028202243790649734_116_00003338886116348349_015_00000816496580927726_0,
  016_00002475153636803477_016_00010746666804491714_116_00005286628391522703_016_00009342579604032467_117_00025060107554155975_116_00003338886116348349_015_00000816496580927726_0,
  016_00002475153636803477_016_00010746666804491714_016_00011447427108300672_114_00000132286659321677_117_00021917971317662216_116_00003338886116348349_015_00000816496580927726_0,
  017_00019751933005269812_016_00010072657948436043_116_00005453968946520936_016_00004627697203137324_117_00018775835081168454_116_00003338886116348349_015_00000816496580927726_0,
  017_00014752329642507697_016_00008724640236325086_117_00018282569215592054_017_00007153479768626296_117_00015633698844674693_116_00003338886116348349_115_00001224744871391589_0,
  017_00014752329642507697_016_00009398649092380373_117_00007126532215709803_117_00014916182533436123_117_00010920494489934053_116_00003338886116348349_015_00000816496580927726_0,
  017_00019751933005269812_016_00010072657948436043_016_00009216219708324221_116_00010319483174168569_117_00007778358253440293_116_00003338886116348349_015_00000816496580927726_0,
  017_00019751933005269812_016_00009398649092380373_116_00005230848206523292_016_00012452395655686714_118_00046362220169465326_016_00029950108064592316_115_00001224744871391589_0,
  016_00002475153636803477_016_00010072657948436043_016_00006817671753349538_117_00040998510708600777_017_00003219118574287868_116_00003338886116348349_015_00000816496580927726_0,
  016_00002475153636803477_016_00009398649092380373_116_00004059464321535655_017_00018188310919657433_017_00006361254810781627_116_00003338886116348349_015_00000816496580927726_0,
  017_00019751933005269812_016_00008724640236325086_016_00003861321948380742_117_00049023842454805255_017_00009503391047275388_116_00003338886116348349_015_00000816496580927726_0,
  017_00019751933005269812_016_00009398649092380373_116_00010418405411468539_015_00001736791135023697_017_00012645527283769148_116_00003338886116348349_115_00001224744871391589_0,
  017_00019751933005269812_016_00009398649092380373_016_00003638201208383097_116_00008313150237617443_016_00001735873163850979_116_00003338886116348349_115_00001224744871391589_0,
  017_00019751933005269812_016_00009398649092380373_116_00006234891536512694_015_00001074701265961826_016_00002207193599325043_016_00029950108064592316_115_00001224744871391589_0,
  017_00019751933005269812_016_00009398649092380373_116_00006402232091510928_016_00004627697203137324_016_00002992727658448483_116_00003338886116348349_015_00000816496580927726_0,
  017_00019751933005269812_016_00009398649092380373_016_00006873451938348949_116_00010720749761478792_016_00003306941282097859_116_00003338886116348349_015_00000816496580927726_0,
  017_00019751933005269812_016_00009398649092380373_015_00002215722262818763_116_00016137848690166836_017_00036211549057472353_116_00003338886116348349_015_00000816496580927726_0,
  017_00019751933005269812_016_00009398649092380373_016_00010554944148310093_116_00008313150237617443_016_00003935368529396611_116_00003338886116348349_015_00000816496580927726_0,
  017_00019751933005269812_016_00009398649092380373_016_00000737631588413712_116_00011222332995616573_016_00004249582153045987_116_00003338886116348349_015_00000816496580927726_0,
  017_00019751933005269812_016_00010072657948436043_016_00006873451938348949_116_00011021699701961463_016_00004563795776695363_016_00029950108064592316_115_00001224744871391589_0,
  017_00014752329642507697_016_00009398649092380373_115_00001092042707646324_016_00017769177937547203_016_00005349329835818804_116_00003338886116348349_015_00000816496580927726_0,
  017_00019751933005269812_016_00010072657948436043_116_00003501662471541543_116_00007410300416169433_016_00005663543459468179_116_00003338886116348349_115_00001224744871391589_0,
  017_00014752329642507697_016_00009398649092380373_116_00010753086521465005_016_00011148279246928485_016_00006134863894942243_116_00003338886116348349_015_00000816496580927726_0,
  017_00019751933005269812_016_00010072657948436043_116_00002609179511550963_016_00004627697203137324_016_00006449077518591619_116_00003338886116348349_015_00000816496580927726_0,
  017_00014752329642507697_016_00010072657948436043_019_00068269368420777075_017_00015178811514830773_016_00006763291142240996_116_00003338886116348349_115_00001224744871391589_0,
  017_00019751933005269812_016_00010072657948436043_016_00003191959728387807_116_00007510617062996991_015_00000723461157771506_116_00003338886116348349_015_00000816496580927726_0,
  016_00002475153636803477_016_00010746666804491714_018_00012404955342018832_016_00007837829901619122_016_00007548825201364435_116_00003338886116348349_015_00000816496580927726_0,
  016_00002475153636803477_016_00010746666804491714_016_00006817671753349538_116_00010018533233685898_016_00007863038825013812_116_00003338886116348349_015_00000816496580927726_0,
  017_00019751933005269812_016_00010746666804491714_116_00010027944116472658_016_00015461895060513404_016_00008177252448663187_116_00003338886116348349_115_00001224744871391589_0,
  016_00002475153636803477_016_00010746666804491714_118_00060109285157215794_017_00024207309729310825_016_00008648572884137251_116_00003338886116348349_015_00000816496580927726_0,
  016_00002475153636803477_016_00010746666804491714_115_00001633110502140613_016_00012953978889824496_016_00008962786507786628_116_00003338886116348349_115_00001224744871391589_0,
  016_00002475153636803477_016_00010746666804491714_017_00020205758434001708_116_00007510617062996991_016_00009434106943260692_116_00003338886116348349_015_00000816496580927726_0,
  016_00002475153636803477_016_00010746666804491714_016_00006650331198351305_116_00009617266646375675_016_00009748320566910068_116_00003338886116348349_115_00001224744871391589_0,
  016_00002475153636803477_016_00010746666804491714_116_00008577659306487967_016_00014859995179548064_016_00010219641002384132_116_00003338886116348349_015_00000816496580927726_0,
  016_00002475153636803477_013_00000011420675660547_115_00000472882654152859_015_00001034574607230803_016_00010533854626033508_016_00029950108064592316_115_00001224744871391589_0,
  016_00002475153636803477_016_00010746666804491714_117_00023302785865539066_017_00005147146832075141_016_00011319388685156948_116_00003338886116348349_015_00000816496580927726_0,
  016_00002975113973079973_013_00000011420675660547_116_00006402232091510928_016_00010847329306445812_016_00011633602308806323_116_00003338886116348349_115_00001224744871391589_0,
  016_00002975113973079973_013_00000011420675660547_118_00060109285157215794_016_00003925480675344427_016_00012104922744280389_116_00003338886116348349_015_00000816496580927726_0,
  016_00002975113973079973_015_00001209468451660267_019_00012489183421365824_117_00029963679557569567_016_00012419136367929764_116_00003338886116348349_015_00000816496580927726_0,
  016_00003475074309356185_015_00001209468451660267_116_00011310888371459118_016_00018471394465340092_015_00001273334999157914_116_00003338886116348349_015_00000816496580927726_1,
  016_00002475153636803477_016_00010746666804491714_117_00007684334065703917_117_00023944680747916175_016_00013047563615228517_116_00003338886116348349_015_00000816496580927726_0,
  016_00002475153636803477_016_00010746666804491714_116_00004617266171529768_016_00011148279246928485_016_00013361777238877892_116_00003338886116348349_115_00001224744871391589_0,
  016_00002475153636803477_013_00000011420675660547_015_00003359216055306694_116_00022859064027613107_016_00013833097674351955_116_00003338886116348349_115_00001224744871391589_0,
  016_00002475153636803477_016_00010746666804491714_116_00003501662471541543_117_00008897183723782728_015_00001430441810982602_116_00003338886116348349_115_00001224744871391589_0,
  016_00002475153636803477_016_00010746666804491714_117_00016609163665609716_015_00000723593002065379_016_00014775738545300083_116_00003338886116348349_015_00000816496580927726_0,
  016_00002475153636803477_016_00010746666804491714_116_00005119287836524469_016_00005430230377757772_015_00001508995216894946_116_00003338886116348349_015_00000816496580927726_0,
  016_00002975113973079973_013_00000011420675660547_116_00005063507651525058_016_00009141946310377358_016_00015404165792598836_116_00003338886116348349_015_00000816496580927726_0,
  016_00002975113973079973_013_00000011420675660547_116_00006179111351513282_015_00001265302894934183_016_00015718379416248212_116_00003338886116348349_015_00000816496580927726_0,
  016_00002975113973079973_013_00000011420675660547_116_00008354538566490322_016_00012151445715204048_015_00001603259303989759_116_00003338886116348349_115_00001224744871391589_0,
  016_00003475074309356185_013_00000011420675660547_016_00005367386943364846_116_00007610933709824549_016_00016503913475371652_116_00003338886116348349_015_00000816496580927726_0,
  016_00003475074309356185_013_00000011420675660547_116_00008019857456493854_016_00003724847381689319_016_00016818127099021027_116_00003338886116348349_015_00000816496580927726_0,
  016_00003475074309356185_015_00001209468451660267_116_00005342408576522114_016_00003724847381689319_016_00017132340722670405_116_00003338886116348349_015_00000816496580927726_0,
  016_00003475074309356185_013_00000011420675660547_116_00007071594311503863_016_00009141946310377358_015_00001744655434631978_116_00003338886116348349_115_00001224744871391589_0,
  016_00003475074309356185_013_00000011420675660547_117_00008242135915698029_016_00003524214088034203_016_00017917874781793846_116_00003338886116348349_015_00000816496580927726_0,
  016_00003475074309356185_015_00001209468451660267_116_00007350495236500919_017_00024207309729310825_015_00001823208840544322_116_00003338886116348349_115_00001224744871391589_0,
  017_00039750346456326807_013_00000011420675660547_116_00007908297086495032_016_00003524214088034203_016_00018703408840917284_116_00003338886116348349_015_00000816496580927726_0,
  016_00003475074309356185_013_00000011420675660547_117_00019398172915580278_117_00030966846025845146_016_00019017622464566661_116_00003338886116348349_115_00001224744871391589_0,
  016_00003475074309356185_013_00000011420675660547_016_00031137832413092843_115_00002115368103154465_016_00019488942900040724_116_00003338886116348349_115_00001224744871391589_1,
  016_00002975113973079973_013_00000011420675660547_017_00007934117734131232_118_00018750184458538297_116_00016959837443286896_116_00003338886116348349_015_00000816496580927726_0,
  016_00002975113973079973_013_00000011420675660547_116_00005955990611515638_117_00007894017255507152_116_00016645623819637518_116_00003338886116348349_015_00000816496580927726_0,
  016_00002475153636803477_016_00010746666804491714_017_00021321362133989932_117_00034979511898947385_116_00016331410195988143_116_00003338886116348349_115_00001224744871391589_0,
  016_00002475153636803477_016_00010072657948436043_116_00009414362081479135_014_00000161641115883063_116_00015860089760514078_116_00003338886116348349_115_00001224744871391589_0,
  016_00002475153636803477_016_00010746666804491714_117_00018282569215592054_117_00037989011303774045_116_00015388769325040015_016_00029950108064592316_115_00001224744871391589_0,
  016_00002975113973079973_016_00010746666804491714_016_00023719067808171146_116_00018645764860855742_116_00014603235265916574_116_00003338886116348349_015_00000816496580927726_0,
  016_00002975113973079973_013_00000011420675660547_116_00002162938031555673_117_00032973178962396227_114_00000142890216422672_016_00029950108064592316_115_00001224744871391589_0,
  016_00002975113973079973_013_00000011420675660547_116_00002832300251548608_016_00007737513254791571_116_00013503487583143758_116_00003338886116348349_015_00000816496580927726_0,
  016_00002975113973079973_016_00010072657948436043_116_00014323018361427324_015_00002027709410823611_116_00013189273959494383_016_00029950108064592316_115_00001224744871391589_0,
  016_00002475153636803477_016_00009398649092380373_116_00007740956531496798_016_00005129280437275106_116_00012403739900370943_116_00003338886116348349_015_00000816496580927726_0,
  016_00002975113973079973_016_00010072657948436043_116_00006681133016507984_117_00013913016065160544_116_00012089526276721567_116_00003338886116348349_015_00000816496580927726_0,
  016_00003475074309356185_016_00010072657948436043_116_00005453968946520936_017_00006150313300350718_115_00001177531265307219_116_00003338886116348349_115_00001224744871391589_0]

/-- lr/data.csv 7702-7801 -/
def dataCsv77 : List ℕ := [
  016_00003475074309356185_016_00010746666804491714_116_00010641526151466183_016_00022584376985269903_116_00011303992217598127_116_00003338886116348349_115_00001224744871391589_0,
  017_00039750346456326807_013_00000011420675660547_116_00003947903951536833_117_00012909849596884967_116_00010832671782124061_016_00029950108064592316_115_00001224744871391589_0,
  016_00003475074309356185_013_00000011420675660547_016_00009048879153325988_116_00009216000059065448_116_00010047137723000623_116_00003338886116348349_115_00001224744871391589_0,
  016_00003475074309356185_013_00000011420675660547_016_00018141049308230022_114_00000164387986306495_116_00009575817287526558_016_00029950108064592316_115_00001224744871391589_0,
  016_00002975113973079973_016_00010746666804491714_016_00005088486018367789_116_00008212833590789884_116_00008790283228403118_116_00003338886116348349_115_00001224744871391589_0,
  016_00002475153636803477_016_00010072657948436043_116_00012426492071447344_016_00009743846191342698_116_00008318962792929054_116_00003338886116348349_015_00000816496580927726_0,
  016_00002475153636803477_016_00010072657948436043_016_00009439340448321867_116_00008814733471755224_116_00008004749169279678_116_00003338886116348349_015_00000816496580927726_0,
  016_00002475153636803477_016_00009398649092380373_015_00000782171508333894_116_00012526449404374806_116_00007690535545630302_016_00029950108064592316_115_00001224744871391589_0,
  016_00002475153636803477_016_00009398649092380373_016_00009495120633321278_116_00007711250356652106_116_00006905001486506862_116_00003338886116348349_015_00000816496580927726_0,
  016_00002475153636803477_016_00009398649092380373_116_00005230848206523292_017_00015178811514830773_116_00006590787862857486_116_00003338886116348349_015_00000816496580927726_0,
  016_00002475153636803477_016_00009398649092380373_115_00000829875838149091_016_00011950812421548933_115_00000627657423920811_116_00003338886116348349_115_00001224744871391589_0,
  017_00019751933005269812_016_00009398649092380373_116_00012816953366443222_015_00001556221170734096_116_00005805253803734046_116_00003338886116348349_015_00000816496580927726_0,
  016_00002475153636803477_016_00010072657948436043_117_00022187182165550842_117_00023944680747916175_115_00000549104018008467_116_00003338886116348349_015_00000816496580927726_0,
  016_00002475153636803477_016_00009398649092380373_016_00029743327788107563_116_00021253997678372203_116_00005176826556435293_116_00003338886116348349_115_00001224744871391589_0,
  016_00002475153636803477_016_00010072657948436043_116_00002888080436548019_016_00003022630853896422_115_00000470550612096123_116_00003338886116348349_015_00000816496580927726_0,
  016_00002475153636803477_016_00010072657948436043_114_00000132074146614391_015_00000964352954451514_116_00004391292497311854_116_00003338886116348349_015_00000816496580927726_0,
  016_00002475153636803477_016_00010072657948436043_116_00008968120601483845_016_00008239096488929353_117_00040770788736624775_116_00003338886116348349_115_00001224744871391589_0,
  016_00002475153636803477_016_00010746666804491714_116_00009693263006476192_016_00013054295536652054_117_00036057584381884134_116_00003338886116348349_015_00000816496580927726_0,
  016_00002975113973079973_013_00000011420675660547_116_00006234891536512694_016_00004627697203137324_117_00032915448145390375_016_00029950108064592316_115_00001224744871391589_0,
  016_00002975113973079973_013_00000011420675660547_118_00021063155657627917_116_00006708083888376544_117_00025060107554155975_016_00029950108064592316_115_00001224744871391589_0,
  016_00002475153636803477_016_00010746666804491714_116_00003501662471541543_017_00017185144451381926_117_00017204766962921575_016_00029950108064592316_115_00001224744871391589_0,
  016_00002475153636803477_016_00010746666804491714_116_00006346451906511517_017_00024207309729310825_117_00009349426371687174_116_00003338886116348349_015_00000816496580927726_0,
  016_00002475153636803477_013_00000011420675660547_116_00007238934866502097_016_00014759678532720513_118_00062072901351934134_116_00003338886116348349_015_00000816496580927726_0,
  016_00002475153636803477_016_00010746666804491714_016_00010666504518308915_116_00009817899940030786_117_00003065153898699653_116_00003338886116348349_015_00000816496580927726_0,
  016_00002475153636803477_016_00010746666804491714_115_00000472882654152859_017_00014175645046555194_019_00007698233779410749_116_00003338886116348349_115_00001224744871391589_0,
  016_00002975113973079973_013_00000011420675660547_016_00011447427108300672_116_00013128349285340146_017_00004790186692534748_116_00003338886116348349_015_00000816496580927726_0,
  017_00039750346456326807_016_00012768693372657955_016_00012395690253290663_116_00011021699701961463_017_00007932322929028508_116_00003338886116348349_115_00001224744871391589_0,
  016_00003475074309356185_016_00012768693372657955_016_00006594551013351894_116_00009115683412237894_017_00012645527283769148_116_00003338886116348349_115_00001224744871391589_0,
  016_00003475074309356185_015_00001209468451660267_116_00006625352831508573_016_00007035296726998674_016_00001735873163850979_116_00003338886116348349_015_00000816496580927726_0,
  016_00003475074309356185_016_00012768693372657955_116_00011701349666454997_016_00019273927639960546_016_00002050086787500355_016_00029950108064592316_115_00001224744871391589_0,
  016_00002975113973079973_016_00012768693372657955_117_00037247832115391877_017_00042264306158271003_016_00002835620846623795_116_00003338886116348349_015_00000816496580927726_0,
  016_00002975113973079973_016_00013442702228713626_017_00015185541784054696_115_00000991821658685834_016_00003149834470273171_116_00003338886116348349_015_00000816496580927726_0,
  016_00002975113973079973_016_00013442702228713626_115_00000606755098151446_016_00002721680913413756_016_00003464048093922547_116_00003338886116348349_015_00000816496580927726_0,
  016_00002975113973079973_016_00013442702228713626_117_00032227615465444864_016_00000915981270517738_016_00003778261717571923_116_00003338886116348349_015_00000816496580927726_0,
  016_00002975113973079973_016_00013442702228713626_015_00000731969341834424_116_00010620433114651238_016_00004092475341221299_116_00003338886116348349_015_00000816496580927726_0,
  016_00002975113973079973_016_00013442702228713626_115_00000740627542150033_016_00015160945120030738_017_00044066889648706753_116_00003338886116348349_015_00000816496580927726_0,
  016_00002975113973079973_016_00014116711084769296_116_00010306845041469714_016_00006934980080171117_016_00004720902588520051_016_00029950108064592316_115_00001224744871391589_0,
  016_00002475153636803477_016_00013442702228713626_015_00002489045169315878_115_00002075241444423442_016_00005506436647643491_116_00003338886116348349_115_00001224744871391589_0,
  016_00002475153636803477_016_00013442702228713626_116_00015382841876416138_015_00002087899398920144_016_00005977757083117555_116_00003338886116348349_115_00001224744871391589_0,
  016_00002475153636803477_016_00012768693372657955_017_00020763560283995822_116_00008915050118582778_016_00006449077518591619_116_00003338886116348349_015_00000816496580927726_0,
  016_00002475153636803477_016_00013442702228713626_116_00004784606726528002_016_00005129280437275106_016_00006763291142240996_116_00003338886116348349_015_00000816496580927726_0,
  016_00002475153636803477_016_00013442702228713626_115_00000339010210154272_117_00009900350192058306_016_00007077504765890371_116_00003338886116348349_015_00000816496580927726_0,
  016_00002475153636803477_016_00012768693372657955_116_00012036030776451463_015_00001796981123120231_016_00007391718389539748_116_00003338886116348349_115_00001224744871391589_0,
  016_00002475153636803477_016_00012768693372657955_016_00009550900818320689_114_00000116235995829268_016_00007863038825013812_116_00003338886116348349_015_00000816496580927726_0,
  017_00019751933005269812_013_00000011420675660547_116_00012538052441446166_016_00019574877580443213_016_00008177252448663187_116_00003338886116348349_015_00000816496580927726_0,
  017_00019751933005269812_013_00000011420675660547_117_00043941454315321227_117_00003881351382404913_016_00008491466072312563_116_00003338886116348349_015_00000816496580927726_0,
  017_00019751933005269812_013_00000011420675660547_116_00001716696551560383_016_00005430230377757772_015_00000880567969596194_116_00003338886116348349_115_00001224744871391589_0,
  016_00002475153636803477_015_00001209468451660267_116_00011589789296456174_016_00015361578413685846_016_00009277000131436004_116_00003338886116348349_115_00001224744871391589_0,
  017_00019751933005269812_013_00000011420675660547_117_00013262352565645041_016_00007436563314308898_016_00009748320566910068_116_00003338886116348349_015_00000816496580927726_0,
  017_00019751933005269812_016_00010746666804491714_016_00007542814158341884_116_00007009033828859209_016_00010062534190559445_116_00003338886116348349_015_00000816496580927726_0,
  017_00019751933005269812_013_00000011420675660547_116_00005286628391522703_016_00011248595893756042_015_00001037674781420882_116_00003338886116348349_015_00000816496580927726_0,
  017_00019751933005269812_013_00000011420675660547_115_00000785251690149562_016_00002621364266586198_016_00010690961437858195_116_00003338886116348349_115_00001224744871391589_0,
  017_00019751933005269812_013_00000011420675660547_015_00001635608338824886_116_00015836898749684165_015_00001116228187333226_116_00003338886116348349_115_00001224744871391589_0,
  016_00002475153636803477_015_00001209468451660267_017_00029130588033907506_017_00020194643856208588_016_00011633602308806323_116_00003338886116348349_115_00001224744871391589_0,
  017_00019751933005269812_013_00000011420675660547_115_00000339010210154272_118_00008718519775782523_016_00012104922744280389_116_00003338886116348349_115_00001224744871391589_0,
  017_00019751933005269812_015_00001209468451660267_116_00009860603561474425_016_00007637196607964014_016_00012576243179754452_116_00003338886116348349_115_00001224744871391589_0,
  016_00002475153636803477_015_00001209468451660267_116_00009525922451477957_015_00001796981123120231_016_00013047563615228517_116_00003338886116348349_015_00000816496580927726_1,
  017_00014752329642507697_013_00000011420675660547_016_00010276043223313036_116_00011723916229754356_016_00013361777238877892_116_00003338886116348349_115_00001224744871391589_0,
  017_00019751933005269812_015_00001209468451660267_016_00008379516933333053_116_00009216000059065448_016_00013833097674351955_116_00003338886116348349_015_00000816496580927726_0,
  017_00019751933005269812_015_00001209468451660267_116_00014880820211421437_016_00019273927639960546_016_00014147311298001333_116_00003338886116348349_015_00000816496580927726_1,
  017_00019751933005269812_013_00000011420675660547_117_00015493559965621492_116_00007009033828859209_016_00014461524921650708_116_00003338886116348349_115_00001224744871391589_0,
  017_00019751933005269812_016_00010746666804491714_016_00009829801743317745_116_00009216000059065448_016_00014932845357124773_016_00029950108064592316_115_00001224744871391589_0,
  017_00014752329642507697_016_00010072657948436043_116_00007740956531496798_015_00000382516402851687_116_00016959837443286896_116_00003338886116348349_115_00001224744871391589_0,
  017_00019751933005269812_016_00010746666804491714_116_00018896993531379047_015_00003672902418795534_115_00001648851700781283_116_00003338886116348349_015_00000816496580927726_1,
  017_00019751933005269812_013_00000011420675660547_017_00009049721434119458_117_00012909849596884967_116_00016174303384163455_116_00003338886116348349_115_00001224744871391589_0,
  017_00014752329642507697_016_00010746666804491714_116_00006234891536512694_016_00016264428235133859_115_00001570298294868939_016_00029950108064592316_115_00001224744871391589_0,
  017_00014752329642507697_016_00009398649092380373_115_00001231493170144852_016_00012753345596169388_115_00001491744888956595_116_00003338886116348349_015_00000816496580927726_0,
  017_00009752726279742736_016_00009398649092380373_115_00001225915151644911_016_00014659361885892956_116_00014603235265916574_016_00029950108064592316_115_00001224744871391589_0,
  017_00009752726279742736_016_00009398649092380373_014_00000234959470681735_116_00019147348094993524_116_00013817701206793134_116_00003338886116348349_115_00001224744871391589_0,
  017_00014752329642507697_016_00010072657948436043_016_00000737631588413712_117_00010903516660333884_115_00001334638077131907_116_00003338886116348349_015_00000816496580927726_0,
  017_00014752329642507697_016_00010072657948436043_017_00005145108484160671_116_00007811567003479657_116_00013032167147669695_116_00003338886116348349_015_00000816496580927726_0,
  017_00014752329642507697_016_00010746666804491714_016_00009495120633321278_116_00010520116467823681_116_00012717953524020318_116_00003338886116348349_015_00000816496580927726_0,
  017_00014752329642507697_016_00010072657948436043_116_00004171024691534478_017_00010162979173452956_116_00012403739900370943_016_00029950108064592316_115_00001224744871391589_0,
  017_00014752329642507697_016_00009398649092380373_015_00001228412988329184_116_00015234998868718825_116_00011618205841247502_116_00003338886116348349_015_00000816496580927726_0,
  017_00014752329642507697_016_00010072657948436043_016_00005311606758365435_115_00000811251694396233_116_00011303992217598127_116_00003338886116348349_015_00000816496580927726_0,
  017_00014752329642507697_016_00010072657948436043_016_00006929232123348361_115_00000640713394789387_116_00010989778593948751_116_00003338886116348349_015_00000816496580927726_0,
  017_00014752329642507697_016_00010072657948436043_116_00005230848206523292_016_00007336246667481341_116_00010675564970299374_116_00003338886116348349_115_00001224744871391589_0,
  017_00014752329642507697_016_00010072657948436043_016_00008714198043329521_116_00014432465694098375_115_00001020424453482531_116_00003338886116348349_015_00000816496580927726_0,
  017_00019751933005269812_016_00010746666804491714_117_00012146748865656816_117_00009900350192058306_116_00009890030911175934_116_00003338886116348349_015_00000816496580927726_0,
  016_00002475153636803477_013_00000011420675660547_016_00015184699503261225_114_00000132286659321677_116_00009575817287526558_116_00003338886116348349_015_00000816496580927726_0,
  017_00019751933005269812_016_00010746666804491714_015_00001540782024325887_115_00001653911527747706_116_00009261603663877183_116_00003338886116348349_015_00000816496580927726_0,
  017_00019751933005269812_013_00000011420675660547_117_00014377956265633265_019_00013131449069732513_116_00008947390040227806_116_00003338886116348349_015_00000816496580927726_0,
  017_00019751933005269812_016_00010746666804491714_117_00011588947015662704_117_00035982678367222964_115_00000863317641657843_116_00003338886116348349_115_00001224744871391589_0,
  017_00014752329642507697_016_00010072657948436043_016_00007152352863346005_116_00011222332995616573_116_00008161855981104366_116_00003338886116348349_015_00000816496580927726_0,
  017_00014752329642507697_016_00010072657948436043_116_00007573615976498564_016_00020176777461408553_115_00000784764235745499_116_00003338886116348349_015_00000816496580927726_0,
  017_00009752726279742736_016_00010072657948436043_116_00008689219676486789_017_00021197810324484165_116_00007533428733805614_116_00003338886116348349_015_00000816496580927726_0,
  017_00014752329642507697_016_00010072657948436043_116_00004059464321535655_016_00006232763552378227_116_00007219215110156237_116_00003338886116348349_015_00000816496580927726_0,
  017_00014752329642507697_016_00010072657948436043_116_00008968120601483845_016_00007536879961136456_116_00006905001486506862_116_00003338886116348349_015_00000816496580927726_0,
  017_00009752726279742736_016_00010072657948436043_017_00004587306634166558_016_00000915981270517738_116_00006590787862857486_116_00003338886116348349_115_00001224744871391589_0,
  017_00009752726279742736_016_00010072657948436043_116_00002441838956552729_117_00014916182533436123_116_00006119467427383422_116_00003338886116348349_015_00000816496580927726_0,
  016_00000475312291698062_016_00009398649092380373_016_00010610724333309502_116_00010720749761478792_116_00005805253803734046_116_00003338886116348349_015_00000816496580927726_0,
  016_00000475312291698062_016_00009398649092380373_116_00006736913201507395_016_00007737513254791571_115_00000549104018008467_116_00003338886116348349_015_00000816496580927726_0,
  016_00000475312291698062_016_00009398649092380373_117_00029996408065468416_017_00004143980363799563_116_00005176826556435293_016_00029950108064592316_115_00001224744871391589_0,
  016_00000475312291698062_016_00010072657948436043_116_00005844430241516816_017_00008156646236901802_116_00004391292497311854_116_00003338886116348349_015_00000816496580927726_0,
  017_00009752726279742736_016_00010746666804491714_115_00000690425375650563_016_00015863161647823627_117_00040770788736624775_116_00003338886116348349_115_00001224744871391589_0,
  016_00000475312291698062_016_00010746666804491714_016_00007542814158341884_116_00010419799820996123_117_00036057584381884134_016_00029950108064592316_115_00001224744871391589_0,
  016_00000475312291698062_016_00010072657948436043_115_00000472882654152859_016_00012452395655686714_117_00028202243790649734_116_00003338886116348349_015_00000816496580927726_0,
  118_00002464804457843392_016_00009398649092380373_116_00003501662471541543_117_00009900350192058306_117_00025060107554155975_116_00003338886116348349_015_00000816496580927726_0,
  118_00002464804457843392_016_00010072657948436043_016_00015240479688260637_116_00011723916229754356_117_00021917971317662216_116_00003338886116348349_015_00000816496580927726_0,
  118_00002464804457843392_016_00009398649092380373_115_00000919124134148149_016_00001919147738793301_117_00018775835081168454_116_00003338886116348349_015_00000816496580927726_0]

/-- lr/data.csv 7802-7901 -/
def dataCsv78 : List ℕ := [
  016_00000475312291698062_016_00009398649092380373_117_00008242135915698029_017_00006150313300350718_117_00015633698844674693_116_00003338886116348349_115_00001224744871391589_0,
  118_00002464804457843392_016_00009398649092380373_116_00008689219676486789_015_00000964352954451514_117_00010920494489934053_116_00003338886116348349_015_00000816496580927726_0,
  117_00005246083808549298_016_00008724640236325086_116_00006123331166513871_016_00018270761171684984_117_00007778358253440293_116_00003338886116348349_015_00000816496580927726_0,
  117_00010245687171311416_016_00008724640236325086_117_00012146748865656816_017_00012169312110004112_118_00046362220169465326_116_00003338886116348349_115_00001224744871391589_0,
  117_00005246083808549298_016_00009398649092380373_116_00003278541731543898_015_00000492864714361999_019_00007698233779410749_116_00003338886116348349_115_00001224744871391589_0,
  117_00005246083808549298_016_00009398649092380373_016_00009327780078323045_116_00011222332995616573_017_00004790186692534748_116_00003338886116348349_015_00000816496580927726_0,
  118_00002464804457843392_016_00010072657948436043_115_00001058574596646677_016_00008640363076239577_017_00007932322929028508_116_00003338886116348349_015_00000816496580927726_0,
  118_00002464804457843392_016_00010072657948436043_116_00004896167096526824_016_00009041629663549801_017_00011074459165522269_116_00003338886116348349_115_00001224744871391589_0,
  117_00005246083808549298_016_00009398649092380373_017_00049211454633695556_117_00032973178962396227_016_00001578766352026291_116_00003338886116348349_015_00000816496580927726_0,
  118_00002464804457843392_016_00009398649092380373_118_00009907118657745668_117_00046014343049978595_017_00018929799756756668_116_00003338886116348349_115_00001224744871391589_0,
  016_00000475312291698062_016_00010072657948436043_016_00037887234798021603_115_00002305969732126822_016_00002364300411149731_116_00003338886116348349_015_00000816496580927726_0,
  118_00002464804457843392_016_00009398649092380373_116_00004059464321535655_117_00009900350192058306_016_00002678514034799107_116_00003338886116348349_115_00001224744871391589_0,
  118_00002464804457843392_016_00010072657948436043_016_00007096572678346594_116_00008012200297134773_016_00003149834470273171_116_00003338886116348349_015_00000816496580927726_0,
  118_00002464804457843392_016_00010072657948436043_116_00004673046356529179_017_00017185144451381926_016_00003464048093922547_116_00003338886116348349_015_00000816496580927726_0,
  118_00002464804457843392_016_00009398649092380373_015_00002165520096319293_116_00015435632162373938_016_00003778261717571923_116_00003338886116348349_015_00000816496580927726_0,
  117_00005246083808549298_016_00008724640236325086_015_00000916043952332481_114_00000116235995829268_016_00004092475341221299_116_00003338886116348349_115_00001224744871391589_0,
  117_00010245687171311416_016_00008050631380269416_118_00032219192657510165_117_00040998510708600777_016_00004563795776695363_116_00003338886116348349_015_00000816496580927726_0,
  117_00010245687171311416_016_00008724640236325086_016_00013734414693276533_115_00001463309898775349_017_00048780094003447394_016_00029950108064592316_115_00001224744871391589_0,
  117_00010245687171311416_016_00008050631380269416_015_00003364794073806635_116_00023460963908578445_016_00005663543459468179_116_00003338886116348349_015_00000816496580927726_0,
  117_00010245687171311416_016_00008050631380269416_116_00009470142266478546_016_00006232763552378227_016_00005977757083117555_116_00003338886116348349_015_00000816496580927726_0,
  117_00010245687171311416_016_00008050631380269416_016_00009327780078323045_115_00001082106640830635_016_00006291970706766932_116_00003338886116348349_115_00001224744871391589_0,
  117_00005246083808549298_016_00008724640236325086_016_00014682677838266525_116_00015636265456029053_016_00006763291142240996_116_00003338886116348349_015_00000816496580927726_0,
  117_00005246083808549298_016_00008724640236325086_116_00007015814126504452_017_00018188310919657433_016_00007077504765890371_016_00029950108064592316_115_00001224744871391589_0,
  118_00002464804457843392_016_00008724640236325086_117_00030554209915462527_016_00013254928830307169_016_00007863038825013812_116_00003338886116348349_015_00000816496580927726_0,
  117_00005246083808549298_016_00008724640236325086_118_00021063155657627917_116_00001892884840653836_016_00008177252448663187_116_00003338886116348349_015_00000816496580927726_0,
  117_00005246083808549298_016_00008050631380269416_016_00002243696583397816_117_00045011176581703016_016_00008491466072312563_116_00003338886116348349_115_00001224744871391589_0,
  117_00010245687171311416_015_00000737662252421413_116_00013318975031437923_016_00024289759981338364_016_00008962786507786628_116_00003338886116348349_015_00000816496580927726_0,
  117_00010245687171311416_015_00000737662252421413_116_00004840386911527413_016_00004326747262654651_016_00009277000131436004_116_00003338886116348349_115_00001224744871391589_0,
  117_00010245687171311416_015_00000737662252421413_017_00012954334384078245_117_00043004843645151863_016_00009748320566910068_116_00003338886116348349_115_00001224744871391589_0,
  117_00010245687171311416_016_00008050631380269416_016_00006985012308347772_116_00011723916229754356_016_00010219641002384132_116_00003338886116348349_015_00000816496580927726_0,
  117_00005246083808549298_016_00008050631380269416_116_00002441838956552729_117_00042001677176876356_016_00010533854626033508_016_00029950108064592316_115_00001224744871391589_0,
  118_00002464804457843392_016_00009398649092380373_118_00032219192657510165_016_00002621364266586198_016_00011319388685156948_116_00003338886116348349_115_00001224744871391589_0,
  118_00002464804457843392_016_00009398649092380373_117_00030554209915462527_117_00029963679557569567_015_00001179070912063101_116_00003338886116348349_015_00000816496580927726_0,
  118_00002464804457843392_016_00009398649092380373_016_00003638201208383097_117_00012909849596884967_016_00012104922744280389_116_00003338886116348349_015_00000816496580927726_0,
  118_00002464804457843392_016_00009398649092380373_117_00031112011765456643_016_00005630863671412888_016_00012419136367929764_116_00003338886116348349_015_00000816496580927726_0,
  016_00000475312291698062_016_00010072657948436043_017_00005702910334154783_115_00000530365083279075_015_00001273334999157914_116_00003338886116348349_015_00000816496580927726_0,
  016_00000475312291698062_016_00009398649092380373_016_00003638201208383097_116_00005002700892308083_016_00013047563615228517_116_00003338886116348349_015_00000816496580927726_0,
  017_00009752726279742736_016_00010072657948436043_016_00008156396193335408_116_00009015366765410335_016_00013361777238877892_116_00003338886116348349_015_00000816496580927726_0,
  017_00009752726279742736_016_00010746666804491714_116_00009302801711480313_016_00009242262957204916_016_00013675990862527267_116_00003338886116348349_015_00000816496580927726_0,
  017_00014752329642507697_016_00010746666804491714_115_00000919124134148149_016_00007436563314308898_016_00013990204486176645_116_00003338886116348349_015_00000816496580927726_0,
  017_00009752726279742736_016_00010746666804491714_017_00037497615783819194_116_00009015366765410335_015_00001430441810982602_116_00003338886116348349_015_00000816496580927726_0,
  016_00000475312291698062_016_00010072657948436043_117_00037805633965385993_015_00000723593002065379_016_00014618631733475396_116_00003338886116348349_015_00000816496580927726_0,
  016_00000475312291698062_016_00010072657948436043_016_00006706111383350716_116_00008915050118582778_016_00014932845357124773_116_00003338886116348349_015_00000816496580927726_0,
  016_00000475312291698062_013_00000011420675660547_116_00007740956531496798_016_00008540046429412019_016_00015247058980774149_116_00003338886116348349_115_00001224744871391589_0,
  016_00000475312291698062_013_00000011420675660547_116_00001995597476557439_016_00002621364266586198_016_00015718379416248212_116_00003338886116348349_015_00000816496580927726_0,
  017_00009752726279742736_015_00001209468451660267_015_00001445955709826888_116_00016840065217959728_015_00001603259303989759_116_00003338886116348349_015_00000816496580927726_0,
  017_00009752726279742736_016_00010746666804491714_016_00003861321948380742_116_00005002700892308083_016_00016346806663546964_116_00003338886116348349_115_00001224744871391589_0,
  017_00009752726279742736_016_00010746666804491714_116_00012091810961450875_016_00010947645953273368_016_00016818127099021027_116_00003338886116348349_015_00000816496580927726_0,
  017_00009752726279742736_016_00010746666804491714_017_00004587306634166558_117_00022941514279640599_016_00017132340722670405_016_00029950108064592316_115_00001224744871391589_0,
  017_00014752329642507697_013_00000011420675660547_115_00000919124134148149_015_00000793814654844668_016_00017917874781793846_116_00003338886116348349_115_00001224744871391589_1,
  017_00014752329642507697_013_00000011420675660547_116_00005119287836524469_117_00031970012494120725_116_00016959837443286896_116_00003338886116348349_115_00001224744871391589_0,
  017_00019751933005269812_013_00000011420675660547_116_00009247021526480902_015_00000723593002065379_115_00001648851700781283_116_00003338886116348349_015_00000816496580927726_0,
  017_00014752329642507697_013_00000011420675660547_117_00013262352565645041_117_00024947847216191754_116_00016174303384163455_116_00003338886116348349_015_00000816496580927726_0,
  017_00014752329642507697_013_00000011420675660547_116_00012370711886447932_016_00016565378175616523_116_00015860089760514078_116_00003338886116348349_015_00000816496580927726_0,
  017_00014752329642507697_015_00001209468451660267_017_00006818514034143008_117_00027957346621018414_116_00015545876136864702_116_00003338886116348349_015_00000816496580927726_0,
  017_00014752329642507697_015_00001209468451660267_016_00002968838988390162_116_00007911883650307214_116_00015231662513215327_116_00003338886116348349_115_00001224744871391589_0,
  017_00019751933005269812_015_00001209468451660267_116_00005900210426516227_016_00002220097679275974_116_00014760342077741262_116_00003338886116348349_015_00000816496580927726_0,
  016_00002475153636803477_016_00012768693372657955_116_00005955990611515638_015_00000312294750072398_116_00014446128454091887_116_00003338886116348349_015_00000816496580927726_0,
  016_00002475153636803477_016_00012768693372657955_115_00001052996578146736_016_00011750179127893825_116_00014131914830442511_116_00003338886116348349_015_00000816496580927726_0,
  016_00002475153636803477_016_00012768693372657955_116_00009414362081479135_016_00004828330496792433_116_00013817701206793134_116_00003338886116348349_115_00001224744871391589_0,
  016_00002475153636803477_016_00013442702228713626_115_00000690425375650563_016_00004627697203137324_115_00001334638077131907_116_00003338886116348349_015_00000816496580927726_0,
  016_00002475153636803477_016_00013442702228713626_117_00022744984015544953_016_00002922314207068864_116_00013032167147669695_116_00003338886116348349_015_00000816496580927726_0,
  016_00002475153636803477_016_00013442702228713626_114_00000087449998614862_016_00014157778651755175_116_00012717953524020318_116_00003338886116348349_115_00001224744871391589_0,
  016_00002475153636803477_016_00012768693372657955_117_00015493559965621492_017_00045273805563097663_116_00012246633088546255_116_00003338886116348349_115_00001224744871391589_0,
  016_00002475153636803477_016_00012768693372657955_116_00011645569481455584_016_00019574877580443213_115_00001177531265307219_116_00003338886116348349_015_00000816496580927726_0,
  016_00002475153636803477_016_00012768693372657955_116_00008689219676486789_016_00010546379365963146_116_00011461099029422814_116_00003338886116348349_015_00000816496580927726_0,
  016_00002475153636803477_016_00012768693372657955_116_00006011770796515049_016_00009442896250860024_115_00001114688540577344_116_00003338886116348349_015_00000816496580927726_0,
  016_00002475153636803477_016_00013442702228713626_117_00043383652465327116_116_00001892884840653836_116_00010832671782124061_116_00003338886116348349_015_00000816496580927726_0,
  017_00019751933005269812_016_00012768693372657955_115_00000562130950151917_016_00006734346786516008_116_00010518458158474686_016_00029950108064592316_115_00001224744871391589_0,
  016_00002475153636803477_016_00013442702228713626_016_00013399733583280065_116_00012325816110719694_116_00009732924099351247_116_00003338886116348349_115_00001224744871391589_0,
  016_00002975113973079973_016_00014116711084769296_116_00013709436326433802_016_00012352079008859156_116_00009261603663877183_116_00003338886116348349_115_00001224744871391589_0,
  016_00002975113973079973_016_00014790719940824582_116_00012872733551442632_016_00014759678532720513_116_00008790283228403118_116_00003338886116348349_015_00000816496580927726_0,
  016_00002975113973079973_016_00015464728796880252_117_00003779721115745129_117_00027957346621018414_116_00008476069604753742_116_00003338886116348349_015_00000816496580927726_0,
  016_00003475074309356185_016_00016138737652935538_117_00038363435815380104_117_00013913016065160544_116_00008161855981104366_116_00003338886116348349_015_00000816496580927726_0,
  016_00003475074309356185_016_00015464728796880252_017_00005145108484160671_117_00020935181343089515_115_00000784764235745499_116_00003338886116348349_015_00000816496580927726_0,
  016_00003475074309356185_016_00015464728796880252_016_00020037575598210005_116_00016037532043339278_116_00007533428733805614_116_00003338886116348349_015_00000816496580927726_0,
  016_00003475074309356185_016_00014790719940824582_116_00011366668556458528_016_00009041629663549801_116_00007219215110156237_016_00029950108064592316_115_00001224744871391589_0,
  016_00003475074309356185_016_00015464728796880252_116_00006625352831508573_016_00013856828711272502_116_00006433681051032798_116_00003338886116348349_015_00000816496580927726_0,
  016_00003475074309356185_016_00015464728796880252_116_00006736913201507395_016_00009041629663549801_116_00006119467427383422_116_00003338886116348349_015_00000816496580927726_0,
  017_00039750346456326807_016_00015464728796880252_118_00021063155657627917_017_00003140813895523986_116_00005805253803734046_116_00003338886116348349_115_00001224744871391589_0,
  016_00003475074309356185_016_00016138737652935538_117_00045614859865303564_015_00000723593002065379_116_00005333933368259982_016_00029950108064592316_115_00001224744871391589_0,
  017_00039750346456326807_016_00016138737652935538_117_00025533993265515514_117_00008897183723782728_117_00045483993091365416_116_00003338886116348349_015_00000816496580927726_0,
  016_00003475074309356185_016_00015464728796880252_015_00000731969341834424_115_00001272708269802992_117_00042341856854871657_016_00029950108064592316_115_00001224744871391589_0,
  016_00003475074309356185_016_00015464728796880252_116_00005175068021523881_016_00005430230377757772_117_00034486516263637257_016_00029950108064592316_115_00001224744871391589_0,
  017_00039750346456326807_016_00016138737652935538_116_00004115244506535067_015_00001917361099313299_117_00026631175672402857_116_00003338886116348349_015_00000816496580927726_1,
  016_00003475074309356185_016_00015464728796880252_017_00028572786183913396_116_00003698584483549854_117_00023489039435909095_116_00003338886116348349_015_00000816496580927726_0,
  016_00002975113973079973_016_00014790719940824582_016_00035432906658047507_116_00021554947618854876_117_00020346903199415334_116_00003338886116348349_115_00001224744871391589_0,
  016_00003475074309356185_016_00016138737652935538_017_00028572786183913396_117_00020935181343089515_117_00015633698844674693_116_00003338886116348349_015_00000816496580927726_0,
  016_00003475074309356185_016_00015464728796880252_017_00021321362133989932_116_00006808400535204094_117_00012491562608180934_116_00003338886116348349_015_00000816496580927726_0,
  016_00003475074309356185_016_00016138737652935538_116_00009358581896479724_016_00021781843810649457_117_00009349426371687174_116_00003338886116348349_115_00001224744871391589_0,
  017_00039750346456326807_016_00016138737652935538_015_00001273037136328713_116_00014432465694098375_118_00046362220169465326_116_00003338886116348349_015_00000816496580927726_0,
  017_00039750346456326807_016_00016812746508991208_117_00012146748865656816_117_00007894017255507152_118_00014940857804527726_116_00003338886116348349_015_00000816496580927726_0,
  017_00044749949819088924_016_00017486755365046878_017_00009049721434119458_017_00006150313300350718_018_00016480504560409875_116_00003338886116348349_115_00001224744871391589_0,
  017_00044749949819088924_016_00018160764221102164_116_00006848473571506217_015_00000382516402851687_017_00006361254810781627_116_00003338886116348349_015_00000816496580927726_0,
  017_00039750346456326807_016_00017486755365046878_016_00002745718248392517_117_00044008010113427437_017_00009503391047275388_116_00003338886116348349_115_00001224744871391589_0,
  017_00039750346456326807_016_00017486755365046878_115_00000651379246150975_016_00010044796131825364_016_00001421659540201603_116_00003338886116348349_015_00000816496580927726_0,
  017_00039750346456326807_016_00017486755365046878_116_00009079680971482668_016_00013656195417617392_016_00001735873163850979_116_00003338886116348349_015_00000816496580927726_0,
  017_00039750346456326807_016_00016812746508991208_116_00005844430241516816_015_00001074701265961826_016_00002050086787500355_116_00003338886116348349_015_00000816496580927726_0,
  017_00039750346456326807_016_00016812746508991208_116_00006458012276510339_016_00007336246667481341_016_00002364300411149731_116_00003338886116348349_015_00000816496580927726_0,
  017_00044749949819088924_016_00016138737652935538_116_00009749043191475603_015_00001255271230251427_016_00002678514034799107_116_00003338886116348349_015_00000816496580927726_0]

/-- lr/data.csv 7902-8001 -/
def dataCsv79 : List ℕ := [
  017_00039750346456326807_016_00016138737652935538_016_00015965622093252982_115_00001623816533699439_016_00002992727658448483_116_00003338886116348349_015_00000816496580927726_0,
  017_00039750346456326807_016_00016138737652935538_116_00009693263006476192_017_00045273805563097663_016_00003306941282097859_116_00003338886116348349_015_00000816496580927726_0,
  016_00003475074309356185_016_00015464728796880252_115_00000606755098151446_015_00000723593002065379_017_00036211549057472353_116_00003338886116348349_115_00001224744871391589_0,
  017_00039750346456326807_016_00015464728796880252_116_00005788650056517404_016_00004828330496792433_016_00004092475341221299_116_00003338886116348349_015_00000816496580927726_0,
  017_00039750346456326807_016_00016138737652935538_016_00015184699503261225_116_00014934048928236157_017_00044066889648706753_116_00003338886116348349_115_00001224744871391589_0,
  017_00039750346456326807_016_00016138737652935538_116_00004115244506535067_016_00003724847381689319_017_00048780094003447394_116_00003338886116348349_115_00001224744871391589_0,
  017_00044749949819088924_016_00016138737652935538_116_00009302801711480313_016_00011047962600100927_016_00005349329835818804_116_00003338886116348349_015_00000816496580927726_0,
  017_00039750346456326807_016_00015464728796880252_016_00017806368198233555_116_00013730249166305482_016_00005663543459468179_116_00003338886116348349_015_00000816496580927726_0,
  016_00003475074309356185_016_00015464728796880252_016_00009829801743317745_114_00000132286659321677_016_00005977757083117555_116_00003338886116348349_015_00000816496580927726_0,
  016_00003475074309356185_016_00014790719940824582_017_00028572786183913396_117_00014916182533436123_016_00006291970706766932_116_00003338886116348349_015_00000816496580927726_0,
  017_00039750346456326807_016_00014790719940824582_016_00006985012308347772_116_00014332149047270821_016_00006606184330416307_116_00003338886116348349_115_00001224744871391589_0,
  016_00003475074309356185_016_00014116711084769296_116_00001493575811562738_117_00030966846025845146_016_00007077504765890371_116_00003338886116348349_015_00000816496580927726_0,
  016_00003475074309356185_016_00014116711084769296_117_00022744984015544953_016_00004025797322171985_016_00007391718389539748_116_00003338886116348349_015_00000816496580927726_0,
  016_00003475074309356185_016_00014116711084769296_116_00008019857456493854_016_00001919147738793301_016_00007705932013189124_116_00003338886116348349_015_00000816496580927726_0,
  016_00003475074309356185_016_00014116711084769296_116_00002720739881549785_015_00000312294750072398_016_00008020145636838499_016_00029950108064592316_115_00001224744871391589_0,
  017_00039750346456326807_016_00014116711084769296_117_00006568730365715691_117_00049023842454805255_015_00000880567969596194_016_00029950108064592316_115_00001224744871391589_0,
  017_00039750346456326807_016_00014116711084769296_116_00001493575811562738_117_00028960513089293993_016_00009591213755085379_116_00003338886116348349_015_00000816496580927726_0,
  017_00044749949819088924_016_00014116711084769296_117_00036132228415403655_017_00024207309729310825_016_00009905427378734756_116_00003338886116348349_015_00000816496580927726_0,
  017_00039750346456326807_016_00014116711084769296_117_00018840371065586167_017_00013172478578279617_016_00010219641002384132_116_00003338886116348349_015_00000816496580927726_0,
  017_00039750346456326807_016_00013442702228713626_116_00002386058771553318_019_00013131449069732513_016_00010533854626033508_116_00003338886116348349_015_00000816496580927726_0,
  017_00039750346456326807_016_00013442702228713626_114_00000087449998614862_016_00009342579604032467_016_00010848068249682883_116_00003338886116348349_015_00000816496580927726_0,
  016_00003475074309356185_016_00012768693372657955_116_00006681133016507984_016_00007737513254791571_015_00001116228187333226_116_00003338886116348349_015_00000816496580927726_0,
  016_00003475074309356185_016_00012768693372657955_117_00042825850615333005_118_00028781849141293357_016_00011476495496981636_116_00003338886116348349_015_00000816496580927726_0,
  017_00039750346456326807_016_00013442702228713626_117_00049519472815262355_016_00005028963790447548_015_00001179070912063101_116_00003338886116348349_115_00001224744871391589_0,
  016_00003475074309356185_016_00012768693372657955_116_00008354538566490322_016_00006533713492860893_016_00012262029556105076_016_00029950108064592316_115_00001224744871391589_0,
  016_00003475074309356185_016_00012768693372657955_016_00008825758413328343_116_00011824232876581913_016_00013047563615228517_116_00003338886116348349_115_00001224744871391589_0,
  016_00003475074309356185_016_00012768693372657955_116_00011366668556458528_016_00017167278056581863_015_00001351888405070258_116_00003338886116348349_015_00000816496580927726_1,
  016_00003475074309356185_016_00012768693372657955_116_00003501662471541543_017_00020194643856208588_016_00013833097674351955_116_00003338886116348349_015_00000816496580927726_0,
  016_00002975113973079973_013_00000011420675660547_117_00023302785865539066_016_00003624530734861761_016_00014147311298001333_116_00003338886116348349_015_00000816496580927726_0,
  016_00002975113973079973_016_00010746666804491714_016_00007263913233344829_115_00001082106640830635_016_00014461524921650708_116_00003338886116348349_115_00001224744871391589_0,
  016_00002975113973079973_016_00010746666804491714_116_00004673046356529179_016_00008038463195274238_016_00014932845357124773_116_00003338886116348349_015_00000816496580927726_0,
  016_00003475074309356185_013_00000011420675660547_117_00022187182165550842_115_00000159193490017117_016_00015247058980774149_116_00003338886116348349_015_00000816496580927726_0,
  016_00003475074309356185_015_00001209468451660267_115_00000339010210154272_016_00001919147738793301_016_00015561272604423524_116_00003338886116348349_015_00000816496580927726_0,
  017_00039750346456326807_015_00001209468451660267_016_00021710981148192343_116_00018244498273545515_014_00000158754862280729_116_00003338886116348349_015_00000816496580927726_0,
  017_00039750346456326807_016_00012768693372657955_016_00004586464353373088_116_00011723916229754356_016_00016189699851722277_116_00003338886116348349_115_00001224744871391589_0,
  017_00039750346456326807_016_00012768693372657955_116_00010195284671470892_016_00004326747262654651_015_00001666102028719634_116_00003338886116348349_115_00001224744871391589_0,
  017_00039750346456326807_013_00000011420675660547_116_00002720739881549785_016_00006433396846033335_016_00017132340722670405_116_00003338886116348349_015_00000816496580927726_0,
  017_00039750346456326807_013_00000011420675660547_017_00021879163983984046_116_00008614100178100111_015_00001744655434631978_116_00003338886116348349_015_00000816496580927726_0,
  017_00039750346456326807_013_00000011420675660547_016_00007933275453337764_116_00008714416824927665_016_00017760767969969156_116_00003338886116348349_015_00000816496580927726_0,
  017_00039750346456326807_015_00001209468451660267_116_00006792693386506806_016_00003423897441206646_016_00018074981593618533_116_00003338886116348349_015_00000816496580927726_0,
  016_00003475074309356185_013_00000011420675660547_117_00003779721115745129_019_00013131449069732513_116_00016959837443286896_116_00003338886116348349_115_00001224744871391589_0,
  016_00003475074309356185_013_00000011420675660547_117_00022187182165550842_117_00010903516660333884_115_00001648851700781283_116_00003338886116348349_115_00001224744871391589_0,
  017_00039750346456326807_013_00000011420675660547_116_00005955990611515638_016_00005831496965067996_116_00016017196572338768_116_00003338886116348349_015_00000816496580927726_0,
  017_00039750346456326807_013_00000011420675660547_016_00011949448773295372_116_00011021699701961463_115_00001570298294868939_116_00003338886116348349_015_00000816496580927726_0,
  017_00039750346456326807_013_00000011420675660547_115_00000696003394150504_016_00009041629663549801_116_00015388769325040015_116_00003338886116348349_015_00000816496580927726_0,
  017_00039750346456326807_013_00000011420675660547_015_00000648299064335307_116_00007811567003479657_115_00001507455570139064_116_00003338886116348349_015_00000816496580927726_0,
  017_00039750346456326807_016_00010746666804491714_117_00012704550715650928_117_00044008010113427437_116_00014760342077741262_116_00003338886116348349_015_00000816496580927726_0,
  017_00039750346456326807_013_00000011420675660547_116_00006290671721512106_016_00005530547024585329_116_00014446128454091887_116_00003338886116348349_015_00000816496580927726_0,
  017_00039750346456326807_013_00000011420675660547_116_00003334321916543309_117_00005887684318956068_116_00014131914830442511_116_00003338886116348349_015_00000816496580927726_0,
  016_00003475074309356185_016_00010072657948436043_017_00016858947334037033_117_00035982678367222964_116_00013817701206793134_116_00003338886116348349_115_00001224744871391589_0,
  017_00039750346456326807_016_00010746666804491714_016_00001630114548404292_115_00000399953442403252_115_00001334638077131907_116_00003338886116348349_015_00000816496580927726_0,
  017_00044749949819088924_015_00001209468451660267_016_00016969665423242386_116_00015535948809201496_116_00013032167147669695_116_00003338886116348349_115_00001224744871391589_0,
  017_00044749949819088924_016_00012768693372657955_116_00003278541731543898_016_00000915981270517738_115_00001256084671219563_116_00003338886116348349_115_00001224744871391589_0,
  017_00049749553181853884_016_00013442702228713626_116_00005119287836524469_117_00031970012494120725_116_00012089526276721567_116_00003338886116348349_015_00000816496580927726_0,
  017_00049749553181853884_016_00012768693372657955_115_00000472882654152859_016_00001919147738793301_115_00001177531265307219_116_00003338886116348349_015_00000816496580927726_0,
  017_00044749949819088924_016_00012768693372657955_115_00001276117318144381_014_00000161641115883063_116_00011461099029422814_116_00003338886116348349_115_00001224744871391589_0,
  017_00044749949819088924_016_00012768693372657955_117_00014377956265633265_116_00001993201487481394_116_00010989778593948751_016_00029950108064592316_115_00001224744871391589_0,
  017_00044749949819088924_016_00012768693372657955_015_00003353638036806753_113_00000023561280555406_115_00001020424453482531_016_00029950108064592316_115_00001224744871391589_0,
  017_00049749553181853884_016_00014116711084769296_116_00009023900786483257_016_00009944479484997806_115_00000941871047570187_116_00003338886116348349_015_00000816496580927726_0,
  017_00049749553181853884_016_00014116711084769296_016_00002578377693394283_116_00007711250356652106_116_00009104496852052494_116_00003338886116348349_015_00000816496580927726_0,
  016_00005474915654461884_016_00014790719940824582_116_00002664959696550374_016_00002621364266586198_116_00008790283228403118_016_00029950108064592316_115_00001224744871391589_0,
  017_00049749553181853884_016_00014790719940824582_116_00015327061691416728_016_00019073294346305432_116_00008004749169279678_116_00003338886116348349_015_00000816496580927726_0,
  017_00049749553181853884_016_00014790719940824582_116_00009302801711480313_016_00007035296726998674_116_00007690535545630302_116_00003338886116348349_015_00000816496580927726_0,
  017_00049749553181853884_016_00014790719940824582_117_00016051361815615603_118_00008718519775782523_116_00007376321921980926_116_00003338886116348349_015_00000816496580927726_0,
  017_00044749949819088924_016_00014116711084769296_116_00006458012276510339_018_00021376474272484798_115_00000706210829833155_116_00003338886116348349_015_00000816496580927726_0,
  016_00005474915654461884_016_00015464728796880252_116_00004171024691534478_116_00004701750951825417_116_00006747894674682174_116_00003338886116348349_015_00000816496580927726_0,
  017_00049749553181853884_016_00014790719940824582_017_00035266408383842746_117_00040998510708600777_116_00006433681051032798_116_00003338886116348349_015_00000816496580927726_0,
  017_00049749553181853884_016_00014790719940824582_016_00005032705833368378_116_00007410300416169433_116_00006119467427383422_116_00003338886116348349_115_00001224744871391589_0,
  017_00044749949819088924_016_00014790719940824582_016_00015184699503261225_116_00016840065217959728_116_00005648146991909357_116_00003338886116348349_015_00000816496580927726_0,
  017_00044749949819088924_016_00014116711084769296_016_00009606681003320101_116_00011222332995616573_116_00005333933368259982_116_00003338886116348349_015_00000816496580927726_0,
  017_00044749949819088924_016_00014116711084769296_116_00013486315586436157_016_00008640363076239577_116_00005019719744610606_116_00003338886116348349_115_00001224744871391589_0,
  017_00049749553181853884_016_00014116711084769296_116_00007462055606499741_016_00006132446905550669_117_00045483993091365416_116_00003338886116348349_015_00000816496580927726_0,
  016_00005474915654461884_016_00014790719940824582_116_00007908297086495032_015_00001496031182637562_117_00042341856854871657_116_00003338886116348349_015_00000816496580927726_0,
  016_00005474915654461884_016_00015464728796880252_016_00007989055638337175_116_00010319483174168569_115_00000391997206183779_116_00003338886116348349_015_00000816496580927726_0,
  016_00005974875990738095_016_00015464728796880252_118_00060109285157215794_115_00000159193490017117_117_00036057584381884134_116_00003338886116348349_015_00000816496580927726_0,
  016_00005974875990738095_016_00015464728796880252_017_00005145108484160671_117_00016922515469987276_117_00032915448145390375_116_00003338886116348349_115_00001224744871391589_0,
  016_00005974875990738095_016_00016138737652935538_116_00008019857456493854_016_00007837829901619122_117_00028202243790649734_016_00029950108064592316_115_00001224744871391589_0,
  016_00005974875990738095_016_00016138737652935538_116_00008968120601483845_016_00019073294346305432_117_00020346903199415334_116_00003338886116348349_015_00000816496580927726_0,
  016_00005974875990738095_016_00016138737652935538_116_00003278541731543898_016_00013555878770789835_117_00017204766962921575_116_00003338886116348349_015_00000816496580927726_0,
  016_00005974875990738095_016_00016138737652935538_116_00006179111351513282_117_00033976345430671806_117_00014062630726427813_116_00003338886116348349_115_00001224744871391589_0,
  016_00005974875990738095_016_00016138737652935538_117_00018840371065586167_117_00003881351382404913_117_00009349426371687174_116_00003338886116348349_115_00001224744871391589_0,
  017_00049749553181853884_016_00015464728796880252_116_00005230848206523292_117_00035982678367222964_118_00046362220169465326_116_00003338886116348349_015_00000816496580927726_0,
  017_00049749553181853884_016_00015464728796880252_116_00002832300251548608_016_00002621364266586198_118_00014940857804527726_116_00003338886116348349_015_00000816496580927726_0,
  017_00049749553181853884_016_00014790719940824582_017_00034708606533848635_116_00007009033828859209_018_00016480504560409875_116_00003338886116348349_015_00000816496580927726_0,
  017_00049749553181853884_016_00015464728796880252_017_00006260712184148895_116_00005103017539135641_017_00004790186692534748_116_00003338886116348349_015_00000816496580927726_0,
  017_00049749553181853884_016_00014790719940824582_019_00068269368420777075_116_00005905550713756088_017_00007932322929028508_116_00003338886116348349_015_00000816496580927726_0,
  016_00005474915654461884_016_00015464728796880252_016_00002689938063393106_116_00005504284126445864_017_00011074459165522269_116_00003338886116348349_015_00000816496580927726_0,
  017_00049749553181853884_016_00014790719940824582_116_00002776520066549197_017_00003140813895523986_016_00001421659540201603_016_00029950108064592316_115_00001224744871391589_0,
  016_00005474915654461884_016_00015464728796880252_117_00029438606215474306_116_00005103017539135641_016_00002207193599325043_116_00003338886116348349_015_00000816496580927726_0,
  016_00005474915654461884_016_00016138737652935538_115_00000606755098151446_117_00020935181343089515_016_00002521407222974419_116_00003338886116348349_015_00000816496580927726_0,
  016_00005474915654461884_016_00016138737652935538_016_00015073139133262403_116_00014934048928236157_016_00002835620846623795_116_00003338886116348349_115_00001224744871391589_0,
  016_00005474915654461884_016_00015464728796880252_117_00002664117415756904_117_00009900350192058306_016_00003306941282097859_116_00003338886116348349_015_00000816496580927726_0,
  016_00005474915654461884_016_00015464728796880252_016_00017471687088237087_116_00014131515753615709_017_00036211549057472353_116_00003338886116348349_115_00001224744871391589_0,
  016_00005474915654461884_016_00015464728796880252_016_00003136179543388396_115_00000811251694396233_016_00004092475341221299_116_00003338886116348349_015_00000816496580927726_0,
  017_00049749553181853884_016_00015464728796880252_116_00006402232091510928_016_00003524214088034203_017_00044066889648706753_116_00003338886116348349_015_00000816496580927726_0,
  017_00049749553181853884_016_00014790719940824582_016_00013232393028281833_116_00011222332995616573_016_00004720902588520051_116_00003338886116348349_015_00000816496580927726_0,
  017_00049749553181853884_016_00014790719940824582_117_00022187182165550842_017_00015178811514830773_016_00005035116212169427_116_00003338886116348349_115_00001224744871391589_0,
  017_00049749553181853884_016_00014790719940824582_016_00065331085817731935_115_00003038281253967983_016_00005506436647643491_116_00003338886116348349_115_00001224744871391589_1,
  017_00044749949819088924_016_00014116711084769296_116_00010027944116472658_016_00011750179127893825_016_00005977757083117555_116_00003338886116348349_015_00000816496580927726_0,
  017_00044749949819088924_016_00014116711084769296_017_00043633436133754433_116_00009015366765410335_016_00006291970706766932_116_00003338886116348349_115_00001224744871391589_0]

/-- lr/data.csv 8002-8101 -/
def dataCsv80 : List ℕ := [
  017_00039750346456326807_016_00013442702228713626_116_00005342408576522114_016_00013355245477134718_016_00006763291142240996_116_00003338886116348349_115_00001224744871391589_0,
  017_00039750346456326807_016_00013442702228713626_115_00000919124134148149_015_00001024542942548048_015_00000723461157771506_116_00003338886116348349_015_00000816496580927726_0,
  017_00044749949819088924_016_00014116711084769296_016_00017415906903237675_115_00001704069851161484_016_00007548825201364435_116_00003338886116348349_115_00001224744871391589_0,
  017_00039750346456326807_016_00013442702228713626_116_00014769259841422615_016_00027399576032992603_016_00008020145636838499_116_00003338886116348349_115_00001224744871391589_0,
  017_00044749949819088924_016_00013442702228713626_118_00032219192657510165_016_00004025797322171985_016_00008491466072312563_116_00003338886116348349_015_00000816496580927726_0,
  017_00039750346456326807_016_00013442702228713626_116_00003445882286542132_117_00026954180152742907_015_00000880567969596194_116_00003338886116348349_015_00000816496580927726_0,
  017_00044749949819088924_016_00014116711084769296_117_00042825850615333005_016_00006032130258723112_016_00009119893319611315_116_00003338886116348349_015_00000816496580927726_0,
  017_00049749553181853884_016_00014116711084769296_016_00006985012308347772_114_00000116235995829268_016_00009434106943260692_116_00003338886116348349_115_00001224744871391589_0,
  017_00039750346456326807_016_00012768693372657955_115_00000696003394150504_017_00011166145641728534_016_00009905427378734756_116_00003338886116348349_015_00000816496580927726_0,
  017_00044749949819088924_016_00013442702228713626_013_00000032922798333074_115_00002225716414664777_016_00010219641002384132_016_00029950108064592316_115_00001224744871391589_0,
  017_00039750346456326807_015_00001209468451660267_116_00012036030776451463_016_00021179943929684115_016_00011005175061507573_116_00003338886116348349_015_00000816496580927726_0,
  017_00039750346456326807_015_00001209468451660267_116_00006234891536512694_016_00003323580794379088_016_00011319388685156948_116_00003338886116348349_015_00000816496580927726_0,
  017_00044749949819088924_016_00013442702228713626_116_00009135461156482079_014_00000161641115883063_016_00011633602308806323_116_00003338886116348349_115_00001224744871391589_0,
  017_00044749949819088924_016_00013442702228713626_116_00007629396161497976_015_00001074701265961826_016_00012104922744280389_116_00003338886116348349_115_00001224744871391589_0,
  017_00044749949819088924_016_00013442702228713626_116_00002162938031555673_017_00042264306158271003_016_00012576243179754452_116_00003338886116348349_015_00000816496580927726_0,
  017_00049749553181853884_016_00013442702228713626_017_00010723126984101795_117_00024947847216191754_016_00012890456803403827_116_00003338886116348349_115_00001224744871391589_0,
  017_00044749949819088924_016_00013442702228713626_116_00005119287836524469_017_00014175645046555194_016_00013361777238877892_116_00003338886116348349_115_00001224744871391589_0,
  017_00049749553181853884_016_00013442702228713626_117_00011588947015662704_117_00006890850787231645_016_00013833097674351955_116_00003338886116348349_015_00000816496580927726_0,
  017_00049749553181853884_016_00012768693372657955_016_00019535553933215304_115_00001653911527747706_016_00014147311298001333_116_00003338886116348349_015_00000816496580927726_0,
  017_00049749553181853884_016_00014116711084769296_016_00007598594343341296_116_00009316316705893005_016_00014461524921650708_116_00003338886116348349_015_00000816496580927726_0,
  017_00044749949819088924_016_00013442702228713626_016_00010108702668314802_116_00012125182817064584_016_00014775738545300083_016_00029950108064592316_115_00001224744871391589_0,
  017_00049749553181853884_016_00013442702228713626_117_00022187182165550842_116_00005403967479618307_016_00015561272604423524_116_00003338886116348349_115_00001224744871391589_0,
  017_00044749949819088924_016_00013442702228713626_116_00005453968946520936_015_00000382516402851687_015_00001603259303989759_116_00003338886116348349_015_00000816496580927726_0,
  017_00044749949819088924_016_00013442702228713626_116_00007908297086495032_016_00002721680913413756_016_00016346806663546964_016_00029950108064592316_115_00001224744871391589_0,
  017_00044749949819088924_016_00013442702228713626_117_00025533993265515514_117_00012909849596884967_016_00017132340722670405_116_00003338886116348349_015_00000816496580927726_0,
  017_00039750346456326807_016_00013442702228713626_115_00000651379246150975_015_00001074701265961826_015_00001744655434631978_116_00003338886116348349_115_00001224744871391589_0,
  016_00003475074309356185_016_00012768693372657955_116_00007796736716496209_015_00001024542942548048_016_00017917874781793846_116_00003338886116348349_015_00000816496580927726_1,
  016_00002975113973079973_016_00012768693372657955_116_00006346451906511517_015_00000492864714361999_015_00001823208840544322_116_00003338886116348349_015_00000816496580927726_0,
  016_00002975113973079973_015_00001209468451660267_117_00021071578465562615_016_00004828330496792433_016_00018546302029092596_116_00003338886116348349_015_00000816496580927726_0,
  016_00002975113973079973_016_00012768693372657955_016_00005032705833368378_116_00004701750951825417_116_00016959837443286896_116_00003338886116348349_115_00001224744871391589_0,
  016_00002975113973079973_016_00013442702228713626_116_00002720739881549785_016_00002220097679275974_115_00001648851700781283_116_00003338886116348349_015_00000816496580927726_0,
  016_00003475074309356185_016_00013442702228713626_017_00006260712184148895_116_00007610933709824549_116_00016174303384163455_116_00003338886116348349_015_00000816496580927726_0,
  017_00039750346456326807_016_00013442702228713626_116_00006848473571506217_016_00006533713492860893_116_00015860089760514078_116_00003338886116348349_015_00000816496580927726_0,
  016_00003475074309356185_016_00012768693372657955_117_00029996408065468416_116_00001190668312860946_116_00015545876136864702_116_00003338886116348349_015_00000816496580927726_0,
  016_00003475074309356185_015_00001209468451660267_017_00014069938084066472_117_00031970012494120725_116_00015231662513215327_116_00003338886116348349_015_00000816496580927726_0,
  016_00003475074309356185_013_00000011420675660547_016_00020706937818202937_114_00000203511478569242_115_00001491744888956595_116_00003338886116348349_015_00000816496580927726_0,
  016_00003475074309356185_013_00000011420675660547_117_00043941454315321227_016_00006132446905550669_116_00014603235265916574_116_00003338886116348349_015_00000816496580927726_0,
  016_00003475074309356185_015_00001209468451660267_017_00035824210233836856_116_00005905550713756088_114_00000142890216422672_116_00003338886116348349_015_00000816496580927726_0,
  016_00003475074309356185_015_00001209468451660267_117_00029438606215474306_016_00007336246667481341_116_00013974808018617824_116_00003338886116348349_015_00000816496580927726_0,
  017_00039750346456326807_016_00012768693372657955_017_00011838730684090021_116_00008212833590789884_116_00013660594394968446_116_00003338886116348349_015_00000816496580927726_0,
  017_00039750346456326807_016_00012768693372657955_117_00022744984015544953_117_00006890850787231645_115_00001334638077131907_116_00003338886116348349_015_00000816496580927726_0,
  017_00039750346456326807_016_00012768693372657955_116_00006011770796515049_016_00008540046429412019_116_00013032167147669695_016_00029950108064592316_115_00001224744871391589_0,
  017_00039750346456326807_016_00012768693372657955_117_00029438606215474306_016_00005129280437275106_116_00012246633088546255_116_00003338886116348349_015_00000816496580927726_0,
  016_00003475074309356185_016_00012768693372657955_117_00029438606215474306_117_00042001677176876356_116_00011932419464896877_116_00003338886116348349_015_00000816496580927726_0,
  016_00003475074309356185_015_00001209468451660267_116_00005453968946520936_116_00001892884840653836_116_00011618205841247502_116_00003338886116348349_015_00000816496580927726_0,
  016_00003475074309356185_016_00012768693372657955_115_00000963748282147678_016_00015160945120030738_116_00011303992217598127_116_00003338886116348349_115_00001224744871391589_0,
  016_00002975113973079973_015_00001209468451660267_117_00037805633965385993_017_00014175645046555194_116_00010832671782124061_116_00003338886116348349_015_00000816496580927726_0,
  016_00002975113973079973_016_00012768693372657955_116_00004226804876533889_117_00017925681938262783_116_00010518458158474686_116_00003338886116348349_015_00000816496580927726_0,
  016_00002975113973079973_016_00012768693372657955_116_00007015814126504452_017_00013172478578279617_115_00001020424453482531_116_00003338886116348349_015_00000816496580927726_0,
  016_00002975113973079973_016_00012768693372657955_016_00003638201208383097_116_00009516949999548118_116_00009890030911175934_016_00029950108064592316_115_00001224744871391589_0,
  016_00003475074309356185_016_00013442702228713626_116_00007685176346497387_016_00011148279246928485_116_00009104496852052494_116_00003338886116348349_015_00000816496580927726_0,
  016_00002975113973079973_015_00001209468451660267_016_00006315650088354837_116_00012827399344857475_116_00008790283228403118_116_00003338886116348349_015_00000816496580927726_0,
  016_00002475153636803477_016_00012768693372657955_116_00007573615976498564_016_00005731180318240445_116_00008476069604753742_116_00003338886116348349_015_00000816496580927726_0,
  016_00002475153636803477_016_00012768693372657955_015_00001942399356321648_116_00018344814920373074_116_00008161855981104366_116_00003338886116348349_015_00000816496580927726_0,
  017_00019751933005269812_015_00001209468451660267_116_00007462055606499741_015_00000793814654844668_115_00000784764235745499_116_00003338886116348349_015_00000816496580927726_0,
  017_00009752726279742736_016_00010746666804491714_116_00002386058771553318_017_00011166145641728534_116_00007533428733805614_016_00029950108064592316_115_00001224744871391589_0,
  016_00000475312291698062_016_00010072657948436043_117_00022187182165550842_016_00003423897441206646_116_00006747894674682174_116_00003338886116348349_015_00000816496580927726_0,
  017_00009752726279742736_016_00010072657948436043_017_00005702910334154783_117_00027957346621018414_116_00006433681051032798_116_00003338886116348349_015_00000816496580927726_0,
  017_00014752329642507697_016_00010746666804491714_117_00013262352565645041_015_00000492864714361999_116_00006119467427383422_116_00003338886116348349_015_00000816496580927726_0,
  017_00009752726279742736_016_00010746666804491714_019_00068269368420777075_117_00022941514279640599_116_00005805253803734046_116_00003338886116348349_015_00000816496580927726_0,
  017_00009752726279742736_016_00010072657948436043_116_00006290671721512106_016_00004326747262654651_115_00000549104018008467_016_00029950108064592316_115_00001224744871391589_0,
  017_00009752726279742736_016_00010746666804491714_116_00004115244506535067_017_00014175645046555194_115_00000470550612096123_116_00003338886116348349_115_00001224744871391589_0,
  017_00014752329642507697_016_00010746666804491714_116_00010027944116472658_016_00014157778651755175_117_00042341856854871657_116_00003338886116348349_115_00001224744871391589_0,
  017_00014752329642507697_013_00000011420675660547_017_00006818514034143008_117_00035982678367222964_117_00037628652500131016_116_00003338886116348349_115_00001224744871391589_0,
  016_00002475153636803477_015_00001209468451660267_016_00003191959728387807_116_00005203334185963199_117_00032915448145390375_116_00003338886116348349_015_00000816496580927726_0,
  016_00002475153636803477_016_00012768693372657955_015_00000731969341834424_116_00013730249166305482_117_00029773311908896616_116_00003338886116348349_115_00001224744871391589_0,
  017_00019751933005269812_016_00012768693372657955_016_00018364170048227666_116_00018746081507683297_117_00025060107554155975_116_00003338886116348349_015_00000816496580927726_0,
  016_00002975113973079973_016_00013442702228713626_116_00002720739881549785_118_00018750184458538297_117_00021917971317662216_116_00003338886116348349_115_00001224744871391589_0,
  016_00002475153636803477_016_00012768693372657955_016_00007654374528340707_117_00048020675986529676_117_00017204766962921575_116_00003338886116348349_115_00001224744871391589_0,
  016_00002475153636803477_016_00012768693372657955_016_00018754631343223545_116_00017943548333062846_117_00012491562608180934_116_00003338886116348349_115_00001224744871391589_0,
  016_00002475153636803477_016_00013442702228713626_016_00018308389863228256_115_00001704069851161484_117_00007778358253440293_116_00003338886116348349_115_00001224744871391589_0,
  016_00002475153636803477_016_00013442702228713626_015_00000598096897835837_116_00010520116467823681_117_00003065153898699653_116_00003338886116348349_015_00000816496580927726_0,
  016_00002475153636803477_016_00013442702228713626_116_00009135461156482079_016_00003223264147551537_019_00007698233779410749_016_00029950108064592316_115_00001224744871391589_0,
  016_00002475153636803477_016_00013442702228713626_017_00010723126984101795_117_00032973178962396227_017_00007932322929028508_116_00003338886116348349_015_00000816496580927726_0,
  017_00019751933005269812_016_00013442702228713626_014_00000051442662033672_116_00005103017539135641_017_00011074459165522269_116_00003338886116348349_015_00000816496580927726_0,
  017_00019751933005269812_016_00013442702228713626_115_00000963748282147678_016_00003022630853896422_016_00001421659540201603_116_00003338886116348349_015_00000816496580927726_0,
  017_00014752329642507697_015_00001209468451660267_116_00009972163931473248_016_00008038463195274238_016_00001735873163850979_116_00003338886116348349_015_00000816496580927726_0,
  017_00014752329642507697_015_00001209468451660267_017_00004587306634166558_118_00028781849141293357_016_00002050086787500355_116_00003338886116348349_015_00000816496580927726_0,
  017_00014752329642507697_013_00000011420675660547_017_00017974551034025257_116_00008814733471755224_016_00002364300411149731_116_00003338886116348349_015_00000816496580927726_0,
  017_00009752726279742736_016_00010072657948436043_118_00060109285157215794_117_00038992177772049624_016_00002678514034799107_116_00003338886116348349_015_00000816496580927726_0,
  017_00009752726279742736_016_00010072657948436043_116_00005955990611515638_016_00003624530734861761_016_00002992727658448483_016_00029950108064592316_115_00001224744871391589_0,
  017_00009752726279742736_016_00010746666804491714_116_00010195284671470892_016_00013555878770789835_016_00003778261717571923_116_00003338886116348349_015_00000816496580927726_0,
  016_00000475312291698062_016_00010072657948436043_115_00000651379246150975_016_00006232763552378227_016_00004092475341221299_016_00029950108064592316_115_00001224744871391589_0,
  016_00000475312291698062_016_00009398649092380373_115_00000562130950151917_016_00002220097679275974_017_00048780094003447394_116_00003338886116348349_015_00000816496580927726_0,
  017_00009752726279742736_016_00009398649092380373_117_00031112011765456643_016_00004427063909482209_016_00005192223023994115_116_00003338886116348349_015_00000816496580927726_0,
  017_00009752726279742736_016_00009398649092380373_116_00011589789296456174_016_00009844162838170248_016_00005506436647643491_116_00003338886116348349_015_00000816496580927726_0,
  017_00009752726279742736_016_00009398649092380373_116_00004226804876533889_117_00024947847216191754_016_00005820650271292868_116_00003338886116348349_015_00000816496580927726_0,
  016_00000475312291698062_016_00009398649092380373_116_00005175068021523881_017_00006150313300350718_016_00006134863894942243_116_00003338886116348349_015_00000816496580927726_0,
  016_00000475312291698062_016_00009398649092380373_116_00010195284671470892_016_00005731180318240445_016_00006449077518591619_116_00003338886116348349_015_00000816496580927726_0,
  016_00000475312291698062_016_00008724640236325086_016_00007654374528340707_116_00009717583293203229_016_00006763291142240996_116_00003338886116348349_015_00000816496580927726_0,
  016_00000475312291698062_016_00009398649092380373_016_00020706937818202937_115_00001704069851161484_016_00007077504765890371_116_00003338886116348349_015_00000816496580927726_0,
  017_00009752726279742736_016_00010746666804491714_116_00009135461156482079_016_00016966644762926748_016_00007391718389539748_116_00003338886116348349_015_00000816496580927726_0,
  017_00009752726279742736_016_00010746666804491714_117_00014377956265633265_017_00008156646236901802_016_00007705932013189124_116_00003338886116348349_115_00001224744871391589_0,
  017_00009752726279742736_016_00010746666804491714_117_00015493559965621492_117_00043004843645151863_016_00008177252448663187_116_00003338886116348349_015_00000816496580927726_0,
  017_00009752726279742736_016_00010746666804491714_016_00006873451938348949_116_00011222332995616573_016_00008491466072312563_016_00029950108064592316_115_00001224744871391589_0,
  017_00009752726279742736_013_00000011420675660547_117_00025533993265515514_016_00008339413135756903_016_00009277000131436004_116_00003338886116348349_015_00000816496580927726_0,
  017_00009752726279742736_013_00000011420675660547_017_00009049721434119458_116_00002595101368446733_016_00009591213755085379_116_00003338886116348349_115_00001224744871391589_0,
  017_00014752329642507697_013_00000011420675660547_116_00004840386911527413_017_00015178811514830773_016_00010062534190559445_116_00003338886116348349_015_00000816496580927726_0,
  017_00009752726279742736_016_00010746666804491714_116_00002162938031555673_117_00009900350192058306_015_00001037674781420882_116_00003338886116348349_015_00000816496580927726_0,
  017_00009752726279742736_013_00000011420675660547_017_00035824210233836856_116_00009516949999548118_016_00010690961437858195_116_00003338886116348349_015_00000816496580927726_0]

/-- lr/data.csv 8102-8201 -/
def dataCsv81 : List ℕ := [
  017_00014752329642507697_013_00000011420675660547_016_00007989055638337175_116_00012225499463892138_016_00011005175061507573_116_00003338886116348349_015_00000816496580927726_0,
  017_00014752329642507697_015_00001209468451660267_016_00001574334363404881_117_00022941514279640599_016_00011319388685156948_116_00003338886116348349_015_00000816496580927726_0,
  017_00014752329642507697_015_00001209468451660267_116_00007015814126504452_016_00006032130258723112_016_00011633602308806323_116_00003338886116348349_015_00000816496580927726_0,
  017_00014752329642507697_016_00012768693372657955_116_00006123331166513871_016_00001618197798310635_014_00000119478159324557_116_00003338886116348349_115_00001224744871391589_0,
  017_00014752329642507697_016_00012768693372657955_016_00008546857488331286_116_00008513783531272554_016_00012419136367929764_116_00003338886116348349_015_00000816496580927726_0,
  017_00019751933005269812_016_00012768693372657955_116_00003501662471541543_016_00008740679723067134_015_00001273334999157914_116_00003338886116348349_015_00000816496580927726_0,
  017_00019751933005269812_016_00013442702228713626_016_00003191959728387807_116_00009617266646375675_016_00013047563615228517_116_00003338886116348349_115_00001224744871391589_0,
  017_00014752329642507697_016_00012768693372657955_115_00000829875838149091_016_00009041629663549801_015_00001351888405070258_016_00029950108064592316_115_00001224744871391589_0,
  017_00014752329642507697_015_00001209468451660267_016_00003805541763381331_116_00006306817301066312_015_00001430441810982602_116_00003338886116348349_115_00001224744871391589_0,
  017_00014752329642507697_013_00000011420675660547_016_00015742501353255338_116_00013730249166305482_016_00014775738545300083_116_00003338886116348349_015_00000816496580927726_0,
  017_00014752329642507697_015_00001209468451660267_015_00003359216055306694_116_00021554947618854876_015_00001508995216894946_016_00029950108064592316_115_00001224744871391589_0,
  017_00019751933005269812_015_00001209468451660267_017_00007934117734131232_116_00006908717182031652_014_00000158754862280729_116_00003338886116348349_115_00001224744871391589_1,
  017_00019751933005269812_015_00001209468451660267_116_00005398188761521525_016_00005129280437275106_116_00016959837443286896_116_00003338886116348349_115_00001224744871391589_0,
  017_00019751933005269812_013_00000011420675660547_117_00044499256165315343_016_00005630863671412888_115_00001648851700781283_116_00003338886116348349_015_00000816496580927726_0,
  017_00019751933005269812_015_00001209468451660267_015_00005339412622785793_115_00002657077996023269_116_00016174303384163455_016_00029950108064592316_115_00001224744871391589_0,
  017_00019751933005269812_015_00001209468451660267_116_00009581702636477369_016_00017267594703409421_116_00015388769325040015_116_00003338886116348349_015_00000816496580927726_0,
  017_00014752329642507697_015_00001209468451660267_016_00025950275208147597_116_00020451464503751753_115_00001507455570139064_116_00003338886116348349_015_00000816496580927726_0,
  017_00014752329642507697_013_00000011420675660547_115_00000740627542150033_016_00007536879961136456_116_00014760342077741262_116_00003338886116348349_015_00000816496580927726_0,
  017_00014752329642507697_015_00001209468451660267_017_00005145108484160671_116_00007009033828859209_116_00014446128454091887_116_00003338886116348349_015_00000816496580927726_0,
  017_00014752329642507697_013_00000011420675660547_116_00011478228926457352_016_00015261261766858294_116_00014131914830442511_116_00003338886116348349_015_00000816496580927726_0,
  017_00009752726279742736_016_00010746666804491714_015_00001273037136328713_116_00013629932519477927_116_00013817701206793134_116_00003338886116348349_015_00000816496580927726_0,
  017_00009752726279742736_016_00010746666804491714_016_00016077182463251805_116_00013028032638512588_116_00013503487583143758_116_00003338886116348349_015_00000816496580927726_0,
  017_00009752726279742736_016_00010746666804491714_118_00032219192657510165_016_00006433396846033335_116_00013189273959494383_116_00003338886116348349_115_00001224744871391589_0,
  017_00009752726279742736_016_00010072657948436043_117_00013262352565645041_117_00031970012494120725_116_00012717953524020318_016_00029950108064592316_115_00001224744871391589_0,
  017_00009752726279742736_016_00009398649092380373_016_00001630114548404292_017_00010162979173452956_116_00011932419464896877_116_00003338886116348349_015_00000816496580927726_0,
  017_00009752726279742736_016_00009398649092380373_116_00004840386911527413_016_00007837829901619122_116_00011618205841247502_116_00003338886116348349_015_00000816496580927726_0,
  017_00009752726279742736_016_00009398649092380373_116_00005900210426516227_117_00020935181343089515_116_00011303992217598127_116_00003338886116348349_015_00000816496580927726_0,
  016_00000475312291698062_016_00008724640236325086_016_00006204089718356014_116_00006206500654238761_116_00010989778593948751_116_00003338886116348349_115_00001224744871391589_0,
  016_00000475312291698062_016_00009398649092380373_016_00005032705833368378_116_00008714416824927665_116_00010518458158474686_116_00003338886116348349_015_00000816496580927726_0,
  118_00002464804457843392_016_00008724640236325086_117_00010473343315674478_117_00007894017255507152_115_00001020424453482531_116_00003338886116348349_015_00000816496580927726_0,
  118_00002464804457843392_016_00008050631380269416_116_00008131417826492676_015_00000312294750072398_116_00009890030911175934_016_00029950108064592316_115_00001224744871391589_0,
  117_00005246083808549298_016_00008050631380269416_116_00009749043191475603_015_00000964352954451514_116_00009104496852052494_016_00029950108064592316_115_00001224744871391589_0,
  117_00005246083808549298_016_00008724640236325086_116_00008354538566490322_016_00010044796131825364_116_00008318962792929054_116_00003338886116348349_115_00001224744871391589_0,
  117_00010245687171311416_015_00000737662252421413_116_00004059464321535655_016_00006132446905550669_115_00000784764235745499_116_00003338886116348349_015_00000816496580927726_0,
  117_00015245290534076375_015_00000737662252421413_016_00006204089718356014_116_00007610933709824549_116_00007533428733805614_116_00003338886116348349_015_00000816496580927726_0,
  117_00020244893896838492_015_00000670261366815846_017_00008491919584125346_116_00003698584483549854_116_00007219215110156237_116_00003338886116348349_015_00000816496580927726_0,
  117_00020244893896838492_015_00000602860481210279_117_00036132228415403655_118_00028781849141293357_116_00006905001486506862_116_00003338886116348349_115_00001224744871391589_0,
  116_00002524449725960345_016_00005354595956047504_016_00003415080468385452_116_00007610933709824549_116_00006433681051032798_016_00029950108064592316_115_00001224744871391589_0,
  116_00002524449725960345_016_00005354595956047504_116_00010195284671470892_015_00001496031182637562_116_00005648146991909357_116_00003338886116348349_015_00000816496580927726_0,
  116_00002524449725960345_016_00005354595956047504_017_00017974551034025257_117_00017925681938262783_116_00005333933368259982_116_00003338886116348349_015_00000816496580927726_0,
  117_00020244893896838492_015_00000602860481210279_016_00006650331198351305_116_00012024866170237025_116_00005019719744610606_116_00003338886116348349_015_00000816496580927726_0,
  117_00020244893896838492_016_00005354595956047504_116_00008131417826492676_016_00009944479484997806_115_00000470550612096123_116_00003338886116348349_015_00000816496580927726_0,
  117_00015245290534076375_015_00000670261366815846_116_00005063507651525058_016_00009844162838170248_116_00004391292497311854_116_00003338886116348349_115_00001224744871391589_0,
  117_00015245290534076375_015_00000602860481210279_116_00003445882286542132_017_00004143980363799563_115_00000391997206183779_116_00003338886116348349_015_00000816496580927726_0,
  117_00015245290534076375_015_00000670261366815846_117_00018282569215592054_016_00002721680913413756_117_00036057584381884134_116_00003338886116348349_115_00001224744871391589_0,
  117_00015245290534076375_015_00000602860481210279_016_00008156396193335408_116_00007911883650307214_115_00000313443800271435_116_00003338886116348349_115_00001224744871391589_0,
  117_00020244893896838492_015_00000602860481210279_118_00032219192657510165_116_00008212833590789884_117_00026631175672402857_116_00003338886116348349_015_00000816496580927726_0,
  116_00002524449725960345_016_00005354595956047504_116_00005119287836524469_017_00010162979173452956_117_00023489039435909095_116_00003338886116348349_015_00000816496580927726_0,
  116_00002524449725960345_016_00004680587099991834_116_00002832300251548608_117_00004884517850680491_117_00020346903199415334_116_00003338886116348349_115_00001224744871391589_0,
  117_00020244893896838492_016_00005354595956047504_116_00006234891536512694_016_00010446062719135587_117_00015633698844674693_116_00003338886116348349_115_00001224744871391589_0,
  116_00002524449725960345_016_00004680587099991834_116_00006402232091510928_017_00013172478578279617_117_00010920494489934053_116_00003338886116348349_115_00001224744871391589_0,
  116_00002524449725960345_016_00004680587099991834_117_00037247832115391877_016_00000915981270517738_118_00062072901351934134_116_00003338886116348349_015_00000816496580927726_0,
  116_00002524449725960345_016_00004680587099991834_115_00000562130950151917_016_00005731180318240445_117_00003065153898699653_116_00003338886116348349_015_00000816496580927726_0,
  117_00020244893896838492_016_00005354595956047504_116_00001772476736559794_017_00024207309729310825_019_00007698233779410749_116_00003338886116348349_015_00000816496580927726_0,
  117_00020244893896838492_016_00004680587099991834_116_00008131417826492676_016_00012151445715204048_017_00003219118574287868_116_00003338886116348349_015_00000816496580927726_0,
  116_00002524449725960345_016_00005354595956047504_116_00014267238176427914_016_00012452395655686714_017_00006361254810781627_116_00003338886116348349_015_00000816496580927726_0,
  117_00020244893896838492_016_00005354595956047504_016_00005869408608359546_116_00009115683412237894_017_00009503391047275388_116_00003338886116348349_015_00000816496580927726_0,
  117_00020244893896838492_016_00005354595956047504_117_00022744984015544953_016_00006934980080171117_017_00012645527283769148_116_00003338886116348349_015_00000816496580927726_0,
  117_00020244893896838492_016_00005354595956047504_116_00007740956531496798_017_00008156646236901802_016_00001578766352026291_116_00003338886116348349_015_00000816496580927726_0,
  117_00020244893896838492_015_00000602860481210279_015_00000782171508333894_116_00008814733471755224_017_00018929799756756668_016_00029950108064592316_115_00001224744871391589_0,
  117_00015245290534076375_015_00000737662252421413_017_00044191237983748544_116_00009717583293203229_016_00002678514034799107_116_00003338886116348349_115_00001224744871391589_0,
  117_00020244893896838492_015_00000670261366815846_016_00009774021558318334_116_00009817899940030786_016_00003149834470273171_016_00029950108064592316_115_00001224744871391589_0,
  117_00020244893896838492_015_00000670261366815846_017_00019647956584007595_116_00005002700892308083_016_00003935368529396611_116_00003338886116348349_015_00000816496580927726_0,
  117_00015245290534076375_015_00000737662252421413_017_00019647956584007595_117_00035982678367222964_016_00004249582153045987_116_00003338886116348349_015_00000816496580927726_0,
  117_00020244893896838492_015_00000602860481210279_117_00037247832115391877_016_00000915981270517738_016_00004563795776695363_116_00003338886116348349_015_00000816496580927726_0,
  117_00020244893896838492_015_00000670261366815846_016_00000737631588413712_116_00006808400535204094_017_00048780094003447394_116_00003338886116348349_015_00000816496580927726_0,
  117_00015245290534076375_015_00000737662252421413_017_00035824210233836856_116_00008614100178100111_016_00005192223023994115_116_00003338886116348349_015_00000816496580927726_0,
  117_00015245290534076375_015_00000737662252421413_116_00010362625226469127_016_00007135613373826232_016_00005506436647643491_016_00029950108064592316_115_00001224744871391589_0,
  117_00015245290534076375_015_00000737662252421413_016_00008435297118332464_116_00009416633352720559_016_00006291970706766932_116_00003338886116348349_015_00000816496580927726_0,
  117_00010245687171311416_016_00008050631380269416_016_00011503207293300084_116_00013730249166305482_016_00006606184330416307_116_00003338886116348349_115_00001224744871391589_0,
  117_00005246083808549298_016_00008724640236325086_117_00009357739615686254_016_00005731180318240445_016_00007077504765890371_116_00003338886116348349_015_00000816496580927726_0,
  118_00002464804457843392_016_00009398649092380373_016_00005702068053361313_116_00005504284126445864_016_00007391718389539748_016_00029950108064592316_115_00001224744871391589_0,
  117_00005246083808549298_016_00009398649092380373_016_00003191959728387807_115_00001112201634878902_016_00008177252448663187_116_00003338886116348349_015_00000816496580927726_0,
  117_00005246083808549298_016_00009398649092380373_117_00023302785865539066_117_00029963679557569567_016_00008491466072312563_016_00029950108064592316_115_00001224744871391589_0,
  117_00005246083808549298_016_00008724640236325086_116_00009358581896479724_016_00012352079008859156_016_00009277000131436004_116_00003338886116348349_015_00000816496580927726_0,
  117_00005246083808549298_016_00008724640236325086_116_00005230848206523292_017_00012169312110004112_016_00009591213755085379_116_00003338886116348349_115_00001224744871391589_0,
  117_00010245687171311416_016_00008050631380269416_017_00014069938084066472_019_00013131449069732513_016_00010062534190559445_116_00003338886116348349_015_00000816496580927726_0,
  117_00015245290534076375_015_00000737662252421413_115_00000556552931651976_015_00000492864714361999_015_00001037674781420882_116_00003338886116348349_015_00000816496580927726_0,
  117_00015245290534076375_016_00008050631380269416_116_00010418405411468539_016_00012151445715204048_016_00010690961437858195_116_00003338886116348349_015_00000816496580927726_0,
  117_00010245687171311416_016_00008724640236325086_017_00011838730684090021_117_00046014343049978595_016_00011005175061507573_116_00003338886116348349_015_00000816496580927726_0,
  117_00015245290534076375_016_00008050631380269416_016_00004307563428376032_017_00023204143261035248_016_00011319388685156948_116_00003338886116348349_115_00001224744871391589_0,
  117_00015245290534076375_016_00008050631380269416_016_00016523423943247095_116_00016338481983821946_015_00001179070912063101_116_00003338886116348349_015_00000816496580927726_0,
  117_00015245290534076375_015_00000737662252421413_016_00006148309533356603_116_00007309983769341876_016_00012104922744280389_116_00003338886116348349_115_00001224744871391589_0,
  117_00010245687171311416_015_00000737662252421413_116_00004840386911527413_016_00007336246667481341_016_00012576243179754452_116_00003338886116348349_015_00000816496580927726_0,
  117_00010245687171311416_015_00000737662252421413_016_00033759501108065173_116_00022357480793475326_016_00012890456803403827_116_00003338886116348349_015_00000816496580927726_0,
  117_00015245290534076375_015_00000737662252421413_017_00008491919584125346_017_00010162979173452956_016_00013204670427053204_116_00003338886116348349_015_00000816496580927726_0,
  117_00015245290534076375_015_00000670261366815846_016_00016077182463251805_115_00001463309898775349_015_00001351888405070258_116_00003338886116348349_015_00000816496580927726_0,
  117_00020244893896838492_015_00000602860481210279_116_00005063507651525058_016_00006333080199205777_016_00013833097674351955_116_00003338886116348349_015_00000816496580927726_0,
  117_00020244893896838492_015_00000602860481210279_117_00004895324815733354_116_00001190668312860946_016_00014147311298001333_116_00003338886116348349_115_00001224744871391589_0,
  117_00015245290534076375_015_00000670261366815846_015_00002477889132315996_116_00019047031448165967_016_00014618631733475396_116_00003338886116348349_015_00000816496580927726_0,
  117_00015245290534076375_015_00000602860481210279_016_00004530684168373677_117_00027957346621018414_016_00014932845357124773_116_00003338886116348349_115_00001224744871391589_0,
  117_00020244893896838492_015_00000602860481210279_016_00005088486018367789_115_00001021916652734101_016_00015404165792598836_116_00003338886116348349_115_00001224744871391589_0,
  117_00020244893896838492_015_00000602860481210279_115_00001727936816639612_016_00025292926449613926_014_00000158754862280729_116_00003338886116348349_015_00000816496580927726_1,
  116_00002524449725960345_016_00005354595956047504_016_00018643070973224722_116_00017742915039407734_016_00016189699851722277_116_00003338886116348349_015_00000816496580927726_0,
  116_00003024410062236841_016_00004680587099991834_116_00006290671721512106_016_00005731180318240445_016_00016503913475371652_116_00003338886116348349_015_00000816496580927726_0,
  116_00003024410062236841_016_00005354595956047504_116_00009079680971482668_016_00013957145358100058_016_00016818127099021027_116_00003338886116348349_015_00000816496580927726_1,
  116_00003024410062236841_016_00005354595956047504_014_00000046422445383725_115_00000640713394789387_016_00017132340722670405_116_00003338886116348349_015_00000816496580927726_0,
  116_00003024410062236841_016_00004680587099991834_116_00002609179511550963_016_00005731180318240445_015_00001744655434631978_116_00003338886116348349_115_00001224744871391589_0,
  117_00035243703985130526_016_00004680587099991834_115_00000919124134148149_016_00008941313016722243_016_00017917874781793846_116_00003338886116348349_115_00001224744871391589_0,
  117_00040243307347895485_016_00004680587099991834_016_00011056965813304793_116_00013028032638512588_016_00018389195217267909_116_00003338886116348349_015_00000816496580927726_1]

/-- lr/data.csv 8202-8301 -/
def dataCsv82 : List ℕ := [
  117_00035243703985130526_016_00005354595956047504_116_00006290671721512106_017_00024207309729310825_116_00016959837443286896_116_00003338886116348349_015_00000816496580927726_0,
  117_00035243703985130526_015_00000602860481210279_016_00016021402278252395_116_00014934048928236157_116_00016645623819637518_116_00003338886116348349_115_00001224744871391589_0,
  117_00035243703985130526_015_00000602860481210279_016_00007263913233344829_116_00007610933709824549_116_00016174303384163455_116_00003338886116348349_015_00000816496580927726_0,
  116_00003024410062236841_015_00000602860481210279_117_00036690030265397766_018_00011344809589729025_116_00015860089760514078_116_00003338886116348349_115_00001224744871391589_0,
  116_00003024410062236841_015_00000602860481210279_015_00001183788840329655_116_00012225499463892138_116_00015388769325040015_116_00003338886116348349_015_00000816496580927726_0,
  116_00003024410062236841_015_00000602860481210279_116_00005175068021523881_016_00007336246667481341_115_00001507455570139064_116_00003338886116348349_115_00001224744871391589_0,
  117_00035243703985130526_016_00005354595956047504_117_00031112011765456643_016_00003524214088034203_116_00014603235265916574_116_00003338886116348349_015_00000816496580927726_0,
  117_00040243307347895485_016_00004680587099991834_118_00021063155657627917_016_00002621364266586198_114_00000142890216422672_116_00003338886116348349_015_00000816496580927726_0,
  117_00040243307347895485_016_00004680587099991834_116_00003445882286542132_016_00004025797322171985_116_00013974808018617824_116_00003338886116348349_015_00000816496580927726_0,
  117_00035243703985130526_016_00005354595956047504_116_00008242978196491499_016_00006934980080171117_116_00013660594394968446_116_00003338886116348349_015_00000816496580927726_0,
  117_00040243307347895485_016_00004680587099991834_016_00005423167128364257_116_00010620433114651238_115_00001334638077131907_016_00029950108064592316_115_00001224744871391589_0,
  117_00040243307347895485_017_00040065782439365477_016_00007598594343341296_116_00006708083888376544_115_00001256084671219563_116_00003338886116348349_015_00000816496580927726_0,
  117_00040243307347895485_017_00033325693878808776_116_00011701349666454997_016_00008941313016722243_116_00012246633088546255_016_00029950108064592316_115_00001224744871391589_0,
  117_00040243307347895485_017_00033325693878808776_017_00005145108484160671_116_00006507450594721428_116_00011461099029422814_116_00003338886116348349_115_00001224744871391589_0,
  117_00040243307347895485_017_00033325693878808776_116_00008242978196491499_016_00005831496965067996_116_00010989778593948751_116_00003338886116348349_015_00000816496580927726_0,
  115_00000452429107106576_017_00033325693878808776_116_00005677089686518582_015_00000312294750072398_116_00010675564970299374_116_00003338886116348349_015_00000816496580927726_0,
  117_00040243307347895485_017_00040065782439365477_116_00009414362081479135_016_00021982477104304565_116_00010361351346649998_116_00003338886116348349_015_00000816496580927726_0,
  115_00000452429107106576_017_00040065782439365477_017_00021321362133989932_117_00028960513089293993_116_00010047137723000623_116_00003338886116348349_015_00000816496580927726_0,
  115_00000452429107106576_017_00033325693878808776_117_00029996408065468416_117_00021938347811365091_116_00009732924099351247_116_00003338886116348349_015_00000816496580927726_0,
  116_00005024251407342256_016_00002658560531825208_117_00019398172915580278_115_00000570491742010098_115_00000941871047570187_116_00003338886116348349_015_00000816496580927726_0,
  116_00005524211743618752_017_00019845516757699214_017_00006818514034143008_117_00048020675986529676_116_00009104496852052494_116_00003338886116348349_115_00001224744871391589_0,
  115_00000452429107106576_017_00033325693878808776_116_00006179111351513282_016_00003022630853896422_115_00000863317641657843_116_00003338886116348349_115_00001224744871391589_0,
  116_00005024251407342256_017_00033325693878808776_016_00012061009143294195_116_00012125182817064584_116_00008161855981104366_116_00003338886116348349_015_00000816496580927726_0,
  115_00000452429107106576_017_00033325693878808776_116_00011701349666454997_015_00001496031182637562_115_00000784764235745499_116_00003338886116348349_015_00000816496580927726_0,
  115_00000452429107106576_017_00033325693878808776_116_00002386058771553318_117_00048020675986529676_116_00007533428733805614_116_00003338886116348349_015_00000816496580927726_0,
  115_00000452429107106576_017_00033325693878808776_117_00003779721115745129_117_00033976345430671806_116_00007219215110156237_116_00003338886116348349_015_00000816496580927726_0,
  115_00000452429107106576_017_00033325693878808776_116_00008354538566490322_016_00021480893870166784_116_00006905001486506862_116_00003338886116348349_015_00000816496580927726_0,
  115_00000452429107106576_016_00002658560531825208_117_00008242135915698029_016_00011449229187411152_116_00006590787862857486_116_00003338886116348349_115_00001224744871391589_0,
  115_00000452429107106576_016_00002658560531825208_115_00000651379246150975_016_00009342579604032467_116_00006119467427383422_116_00003338886116348349_115_00001224744871391589_0,
  115_00000452429107106576_017_00033325693878808776_016_00011168526183303615_116_00012626766051202365_116_00005648146991909357_116_00003338886116348349_015_00000816496580927726_0,
  115_00000452429107106576_017_00033325693878808776_015_00001100118562830538_116_00013128349285340146_116_00005333933368259982_116_00003338886116348349_015_00000816496580927726_0,
  115_00000452429107106576_017_00033325693878808776_116_00006681133016507984_016_00008840996369894685_116_00005019719744610606_116_00003338886116348349_015_00000816496580927726_0,
  115_00000452429107106576_017_00040065782439365477_115_00001186869022145323_016_00009743846191342698_115_00000470550612096123_116_00003338886116348349_015_00000816496580927726_0,
  115_00000452429107106576_017_00040065782439365477_116_00005007727466525647_016_00003223264147551537_116_00004391292497311854_116_00003338886116348349_115_00001224744871391589_0,
  117_00040243307347895485_017_00040065782439365477_117_00002664117415756904_118_00028781849141293357_115_00000391997206183779_116_00003338886116348349_015_00000816496580927726_0,
  117_00040243307347895485_017_00040065782439365477_116_00005342408576522114_016_00010947645953273368_117_00036057584381884134_116_00003338886116348349_115_00001224744871391589_0,
  117_00040243307347895485_017_00040065782439365477_117_00022744984015544953_017_00011166145641728534_115_00000313443800271435_116_00003338886116348349_015_00000816496580927726_0,
  115_00000452429107106576_017_00040065782439365477_016_00014347996728270056_115_00001403119910678815_117_00028202243790649734_116_00003338886116348349_015_00000816496580927726_0,
  115_00000452429107106576_016_00002658560531825208_117_00011031145165668592_016_00005329913730930215_117_00025060107554155975_116_00003338886116348349_015_00000816496580927726_0,
  116_00005024251407342256_016_00002658560531825208_116_00011143547816460884_015_00000964352954451514_117_00021917971317662216_116_00003338886116348349_015_00000816496580927726_0,
  116_00005024251407342256_016_00002658560531825208_117_00031112011765456643_017_00015178811514830773_117_00018775835081168454_116_00003338886116348349_015_00000816496580927726_0,
  116_00005524211743618752_017_00013105428197142516_016_00031249392783091667_116_00020050197916441532_117_00015633698844674693_116_00003338886116348349_115_00001224744871391589_0,
  116_00005024251407342256_017_00019845516757699214_016_00008379516933333053_116_00010319483174168569_117_00010920494489934053_116_00003338886116348349_115_00001224744871391589_0,
  115_00000452429107106576_016_00002658560531825208_116_00009470142266478546_016_00014559045239065398_118_00062072901351934134_016_00029950108064592316_115_00001224744871391589_0,
  116_00005024251407342256_016_00002658560531825208_116_00001493575811562738_116_00001190668312860946_018_00016480504560409875_116_00003338886116348349_015_00000816496580927726_0,
  116_00005024251407342256_017_00019845516757699214_116_00013151634476439689_016_00028703692441750834_017_00004790186692534748_116_00003338886116348349_115_00001224744871391589_1,
  116_00005024251407342256_017_00019845516757699214_016_00000737631588413712_118_00008718519775782523_017_00009503391047275388_116_00003338886116348349_015_00000816496580927726_0,
  116_00005024251407342256_016_00002658560531825208_016_00009718241373318923_116_00012024866170237025_017_00012645527283769148_116_00003338886116348349_015_00000816496580927726_0,
  116_00005524211743618752_017_00019845516757699214_116_00004617266171529768_016_00004126113968999543_016_00001578766352026291_116_00003338886116348349_015_00000816496580927726_0,
  116_00005024251407342256_016_00002658560531825208_117_00008242135915698029_118_00018750184458538297_017_00018929799756756668_116_00003338886116348349_015_00000816496580927726_0,
  116_00005024251407342256_016_00002658560531825208_116_00008075637641493265_016_00005229597084102664_016_00002207193599325043_116_00003338886116348349_115_00001224744871391589_0,
  116_00005024251407342256_016_00002658560531825208_016_00024667330953161137_116_00018846398154510855_016_00002678514034799107_116_00003338886116348349_015_00000816496580927726_0,
  116_00005024251407342256_016_00002658560531825208_017_00014627739934060582_117_00038992177772049624_016_00002992727658448483_116_00003338886116348349_015_00000816496580927726_0,
  115_00000452429107106576_016_00002658560531825208_016_00006594551013351894_116_00009015366765410335_016_00003306941282097859_116_00003338886116348349_015_00000816496580927726_0,
  116_00005024251407342256_016_00002658560531825208_017_00048095850933707335_117_00028960513089293993_017_00036211549057472353_116_00003338886116348349_115_00001224744871391589_0,
  116_00005024251407342256_016_00002658560531825208_017_00037497615783819194_116_00008915050118582778_016_00004092475341221299_116_00003338886116348349_015_00000816496580927726_0,
  116_00005024251407342256_017_00033325693878808776_116_00011310888371459118_015_00001686632811609919_017_00044066889648706753_016_00029950108064592316_115_00001224744871391589_0,
  116_00005024251407342256_017_00040065782439365477_016_00002689938063393106_116_00005805234066928531_016_00005192223023994115_116_00003338886116348349_115_00001224744871391589_0,
  115_00000452429107106576_017_00040065782439365477_017_00035266408383842746_118_00028781849141293357_016_00005663543459468179_116_00003338886116348349_015_00000816496580927726_0,
  115_00000452429107106576_017_00033325693878808776_117_00037805633965385993_115_00000159193490017117_016_00005977757083117555_116_00003338886116348349_015_00000816496580927726_0,
  115_00000452429107106576_017_00040065782439365477_116_00011534009111456762_016_00008038463195274238_016_00006291970706766932_016_00029950108064592316_115_00001224744871391589_0,
  117_00040243307347895485_017_00040065782439365477_116_00005844430241516816_016_00008439729782584461_016_00007077504765890371_016_00029950108064592316_115_00001224744871391589_0,
  115_00000452429107106576_017_00040065782439365477_016_00021320519853196465_116_00016137848690166836_016_00007863038825013812_116_00003338886116348349_015_00000816496580927726_0,
  117_00040243307347895485_017_00040065782439365477_016_00009216219708324221_116_00009416633352720559_016_00008177252448663187_016_00029950108064592316_115_00001224744871391589_0,
  115_00000452429107106576_017_00040065782439365477_116_00007908297086495032_016_00009543212897687582_016_00008962786507786628_116_00003338886116348349_115_00001224744871391589_0,
  115_00000452429107106576_017_00040065782439365477_013_00000014069095803273_116_00012024866170237025_016_00009434106943260692_016_00029950108064592316_115_00001224744871391589_0,
  115_00000452429107106576_017_00040065782439365477_016_00015575160798257104_115_00001593721539651172_016_00010219641002384132_116_00003338886116348349_015_00000816496580927726_0,
  117_00040243307347895485_016_00004680587099991834_019_00068269368420777075_116_00003698584483549854_016_00010533854626033508_116_00003338886116348349_015_00000816496580927726_0,
  117_00040243307347895485_016_00005354595956047504_117_00020513776615568505_118_00018750184458538297_016_00010848068249682883_116_00003338886116348349_115_00001224744871391589_0,
  117_00040243307347895485_016_00005354595956047504_016_00012395690253290663_116_00009617266646375675_016_00011319388685156948_016_00029950108064592316_115_00001224744871391589_0,
  115_00000452429107106576_016_00005354595956047504_117_00012146748865656816_115_00000159193490017117_016_00012104922744280389_116_00003338886116348349_115_00001224744871391589_0,
  115_00000452429107106576_016_00004680587099991834_116_00012816953366443222_016_00011148279246928485_016_00012576243179754452_116_00003338886116348349_015_00000816496580927726_0,
  116_00005524211743618752_017_00040065782439365477_116_00009804823376475014_015_00001265302894934183_016_00012890456803403827_116_00003338886116348349_015_00000816496580927726_0,
  116_00005024251407342256_017_00040065782439365477_016_00013845975063275355_116_00017843231686235292_016_00013204670427053204_116_00003338886116348349_115_00001224744871391589_0,
  116_00005524211743618752_017_00033325693878808776_016_00005646287868361902_115_00001082106640830635_016_00013675990862527267_116_00003338886116348349_015_00000816496580927726_0,
  116_00005524211743618752_017_00040065782439365477_016_00010108702668314802_116_00014733415634581044_016_00013990204486176645_116_00003338886116348349_115_00001224744871391589_0,
  116_00006024172079894964_017_00033325693878808776_116_00008633439491487378_016_00012853662242996937_016_00014461524921650708_116_00003338886116348349_015_00000816496580927726_0,
  116_00006024172079894964_017_00033325693878808776_115_00001365365614143439_016_00015863161647823627_016_00014775738545300083_016_00029950108064592316_115_00001224744871391589_0,
  116_00006024172079894964_017_00033325693878808776_116_00004171024691534478_016_00006433396846033335_016_00015561272604423524_116_00003338886116348349_015_00000816496580927726_0,
  116_00006024172079894964_017_00040065782439365477_016_00014738458023265935_115_00001463309898775349_014_00000158754862280729_116_00003338886116348349_015_00000816496580927726_0,
  116_00006024172079894964_017_00040065782439365477_017_00035266408383842746_117_00008897183723782728_016_00016189699851722277_116_00003338886116348349_015_00000816496580927726_0,
  116_00005524211743618752_017_00040065782439365477_117_00011031145165668592_116_00001190668312860946_016_00016503913475371652_016_00029950108064592316_115_00001224744871391589_0,
  116_00005524211743618752_016_00004680587099991834_016_00005534727498363079_115_00000640713394789387_016_00017289447534495093_116_00003338886116348349_115_00001224744871391589_0,
  116_00005524211743618752_017_00040065782439365477_017_00042517832433766206_116_00007009033828859209_016_00017760767969969156_016_00029950108064592316_115_00001224744871391589_0,
  116_00006024172079894964_017_00040065782439365477_016_00006259869903355426_116_00006708083888376544_116_00016959837443286896_116_00003338886116348349_015_00000816496580927726_0,
  116_00005524211743618752_017_00040065782439365477_116_00008466098936489144_016_00012753345596169388_116_00016645623819637518_116_00003338886116348349_015_00000816496580927726_0,
  116_00006024172079894964_017_00033325693878808776_016_00007765934898339529_116_00007209667122514325_116_00016331410195988143_116_00003338886116348349_115_00001224744871391589_0,
  116_00005524211743618752_017_00040065782439365477_016_00002578377693394283_116_00001892884840653836_116_00015860089760514078_116_00003338886116348349_015_00000816496580927726_0,
  116_00006024172079894964_017_00040065782439365477_016_00005646287868361902_116_00006206500654238761_116_00015545876136864702_116_00003338886116348349_115_00001224744871391589_0,
  116_00005524211743618752_017_00040065782439365477_115_00000740627542150033_015_00000382516402851687_115_00001507455570139064_116_00003338886116348349_015_00000816496580927726_0,
  116_00005524211743618752_017_00040065782439365477_015_00000782171508333894_117_00042001677176876356_116_00014760342077741262_116_00003338886116348349_115_00001224744871391589_0,
  116_00005524211743618752_017_00033325693878808776_016_00009941362113316569_116_00013128349285340146_114_00000142890216422672_116_00003338886116348349_015_00000816496580927726_0,
  116_00005524211743618752_017_00033325693878808776_116_00006123331166513871_118_00008718519775782523_116_00013974808018617824_016_00029950108064592316_115_00001224744871391589_0,
  116_00005524211743618752_016_00002658560531825208_118_00032219192657510165_016_00004427063909482209_116_00013189273959494383_116_00003338886116348349_115_00001224744871391589_0,
  116_00005524211743618752_017_00033325693878808776_117_00007684334065703917_117_00014916182533436123_116_00012717953524020318_116_00003338886116348349_115_00001224744871391589_0,
  116_00005524211743618752_016_00002658560531825208_016_00011168526183303615_116_00013730249166305482_116_00012246633088546255_116_00003338886116348349_015_00000816496580927726_0,
  116_00005524211743618752_017_00019845516757699214_116_00005732869871517993_117_00009900350192058306_116_00011932419464896877_116_00003338886116348349_015_00000816496580927726_0,
  116_00006024172079894964_017_00013105428197142516_016_00003136179543388396_116_00006908717182031652_116_00011618205841247502_116_00003338886116348349_115_00001224744871391589_0,
  115_00000652413241617146_016_00000636533963658965_116_00005788650056517404_016_00005630863671412888_115_00001114688540577344_016_00029950108064592316_115_00001224744871391589_0,
  115_00000652413241617146_118_00003747489239670474_016_00005478947313363668_116_00008212833590789884_116_00010361351346649998_116_00003338886116348349_015_00000816496580927726_0]

/-- lr/data.csv 8302-8401 -/
def dataCsv83 : List ℕ := [
  115_00000652413241617146_016_00000636533963658965_017_00010723126984101795_117_00023944680747916175_116_00010047137723000623_116_00003338886116348349_015_00000816496580927726_0,
  115_00000652413241617146_016_00000636533963658965_016_00005869408608359546_116_00005905550713756088_116_00009732924099351247_116_00003338886116348349_115_00001224744871391589_0,
  115_00000652413241617146_016_00000636533963658965_016_00005702068053361313_116_00008915050118582778_116_00009261603663877183_116_00003338886116348349_015_00000816496580927726_0,
  116_00006024172079894964_017_00013105428197142516_117_00019398172915580278_017_00010162979173452956_116_00008947390040227806_116_00003338886116348349_015_00000816496580927726_0,
  115_00000652413241617146_016_00000636533963658965_117_00018282569215592054_015_00001074701265961826_115_00000863317641657843_116_00003338886116348349_115_00001224744871391589_0,
  116_00006024172079894964_016_00000636533963658965_116_00008856560231485022_016_00004025797322171985_116_00008161855981104366_016_00029950108064592316_115_00001224744871391589_0,
  115_00000652413241617146_016_00000636533963658965_017_00005702910334154783_015_00000252104761975864_116_00007376321921980926_116_00003338886116348349_115_00001224744871391589_0,
  115_00000652413241617146_016_00000636533963658965_116_00007629396161497976_015_00002980717555685396_116_00006905001486506862_116_00003338886116348349_115_00001224744871391589_1,
  115_00000652413241617146_016_00000636533963658965_116_00007685176346497387_016_00005329913730930215_116_00006433681051032798_116_00003338886116348349_015_00000816496580927726_0,
  115_00000652413241617146_118_00003747489239670474_117_00044499256165315343_018_00021376474272484798_116_00006119467427383422_116_00003338886116348349_115_00001224744871391589_0,
  115_00000652413241617146_117_00007114837484523745_116_00004115244506535067_118_00028781849141293357_116_00005648146991909357_116_00003338886116348349_015_00000816496580927726_0,
  116_00006024172079894964_118_00003747489239670474_115_00001359787595643498_016_00012753345596169388_116_00005333933368259982_116_00003338886116348349_115_00001224744871391589_0,
  116_00006024172079894964_118_00003747489239670474_117_00005453126665727467_117_00014916182533436123_117_00048626129327859174_116_00003338886116348349_115_00001224744871391589_0,
  116_00006024172079894964_118_00003747489239670474_117_00030554209915462527_015_00000492864714361999_116_00004391292497311854_116_00003338886116348349_115_00001224744871391589_0,
  116_00006024172079894964_117_00007114837484523745_016_00011168526183303615_116_00009416633352720559_115_00000391997206183779_116_00003338886116348349_015_00000816496580927726_0,
  115_00000652413241617146_116_00001385492604507661_115_00000651379246150975_017_00007153479768626296_117_00036057584381884134_016_00029950108064592316_115_00001224744871391589_0,
  116_00006024172079894964_116_00001385492604507661_116_00004226804876533889_019_00013131449069732513_117_00028202243790649734_116_00003338886116348349_015_00000816496580927726_0,
  115_00000652413241617146_117_00020595014605633308_016_00007152352863346005_116_00009617266646375675_117_00025060107554155975_116_00003338886116348349_015_00000816496580927726_0,
  115_00000652413241617146_117_00020595014605633308_017_00014627739934060582_117_00006890850787231645_117_00021917971317662216_016_00029950108064592316_115_00001224744871391589_0,
  115_00000652413241617146_117_00020595014605633308_116_00008131417826492676_016_00005731180318240445_117_00014062630726427813_116_00003338886116348349_015_00000816496580927726_0,
  116_00006024172079894964_117_00020595014605633308_116_00004784606726528002_016_00007737513254791571_117_00010920494489934053_116_00003338886116348349_115_00001224744871391589_0,
  116_00006024172079894964_117_00027335103166186175_116_00005398188761521525_016_00010044796131825364_118_00062072901351934134_116_00003338886116348349_015_00000816496580927726_0,
  115_00000652413241617146_117_00027335103166186175_116_00009749043191475603_015_00000492864714361999_117_00003065153898699653_116_00003338886116348349_015_00000816496580927726_0,
  115_00000652413241617146_116_00003407519172674287_116_00004784606726528002_017_00004143980363799563_019_00007698233779410749_016_00029950108064592316_115_00001224744871391589_0,
  115_00000652413241617146_116_00003407519172674287_116_00008075637641493265_016_00006032130258723112_017_00007932322929028508_116_00003338886116348349_115_00001224744871391589_0,
  115_00000652413241617146_116_00003407519172674287_116_00002162938031555673_116_00001190668312860946_017_00012645527283769148_116_00003338886116348349_115_00001224744871391589_0,
  116_00007024092752447672_116_00003407519172674287_117_00008799937765692141_116_00005805234066928531_016_00001735873163850979_016_00029950108064592316_115_00001224744871391589_0,
  115_00000652413241617146_117_00027335103166186175_115_00001588486354141084_016_00017167278056581863_016_00002521407222974419_116_00003338886116348349_115_00001224744871391589_0,
  116_00007024092752447672_116_00003407519172674287_115_00001192447040645264_016_00012251762362031606_016_00002992727658448483_116_00003338886116348349_015_00000816496580927726_0,
  116_00006024172079894964_117_00020595014605633308_116_00006402232091510928_015_00000964352954451514_016_00003306941282097859_116_00003338886116348349_015_00000816496580927726_0,
  116_00006024172079894964_117_00020595014605633308_117_00018840371065586167_117_00009900350192058306_017_00036211549057472353_116_00003338886116348349_015_00000816496580927726_0,
  116_00006024172079894964_117_00020595014605633308_116_00008187198011492087_016_00008740679723067134_016_00003935368529396611_116_00003338886116348349_115_00001224744871391589_0,
  116_00006024172079894964_117_00020595014605633308_117_00005453126665727467_016_00004025797322171985_017_00044066889648706753_116_00003338886116348349_015_00000816496580927726_0,
  116_00006024172079894964_117_00020595014605633308_116_00003445882286542132_016_00008540046429412019_016_00004720902588520051_116_00003338886116348349_115_00001224744871391589_0,
  116_00006024172079894964_117_00020595014605633308_117_00044499256165315343_016_00007336246667481341_016_00005192223023994115_116_00003338886116348349_115_00001224744871391589_0,
  116_00005024251407342256_116_00001385492604507661_016_00039114398868008653_115_00002416318043637134_016_00005663543459468179_116_00003338886116348349_115_00001224744871391589_0,
  116_00005524211743618752_117_00020595014605633308_116_00005007727466525647_016_00008840996369894685_016_00006134863894942243_116_00003338886116348349_015_00000816496580927726_0,
  116_00006024172079894964_117_00020595014605633308_017_00028014984333919285_116_00004701750951825417_016_00006449077518591619_116_00003338886116348349_115_00001224744871391589_0,
  116_00006024172079894964_117_00020595014605633308_016_00011224306368303028_116_00011523282936099244_016_00006920397954065683_116_00003338886116348349_015_00000816496580927726_0,
  116_00006024172079894964_117_00020595014605633308_117_00022187182165550842_017_00003140813895523986_015_00000723461157771506_116_00003338886116348349_115_00001224744871391589_0,
  116_00006024172079894964_117_00020595014605633308_116_00003278541731543898_116_00001892884840653836_016_00007705932013189124_116_00003338886116348349_115_00001224744871391589_0,
  116_00006024172079894964_117_00020595014605633308_015_00001183788840329655_116_00010419799820996123_016_00008177252448663187_116_00003338886116348349_015_00000816496580927726_0,
  115_00000652413241617146_117_00020595014605633308_117_00016051361815615603_017_00006150313300350718_016_00008491466072312563_116_00003338886116348349_015_00000816496580927726_0,
  116_00006024172079894964_116_00001385492604507661_116_00005677089686518582_016_00008239096488929353_015_00000880567969596194_016_00029950108064592316_115_00001224744871391589_0,
  116_00006024172079894964_117_00020595014605633308_016_00003917102133380153_017_00004143980363799563_016_00009591213755085379_116_00003338886116348349_015_00000816496580927726_0,
  116_00006024172079894964_116_00001385492604507661_116_00002720739881549785_117_00040998510708600777_016_00009905427378734756_016_00029950108064592316_115_00001224744871391589_0,
  115_00000652413241617146_117_00020595014605633308_017_00034708606533848635_117_00043004843645151863_016_00010690961437858195_116_00003338886116348349_015_00000816496580927726_0,
  115_00000652413241617146_117_00027335103166186175_016_00007040792493347183_116_00008915050118582778_016_00011005175061507573_116_00003338886116348349_015_00000816496580927726_0,
  115_00000652413241617146_117_00027335103166186175_116_00004840386911527413_016_00002721680913413756_016_00011319388685156948_116_00003338886116348349_115_00001224744871391589_0,
  115_00000652413241617146_116_00003407519172674287_116_00002888080436548019_115_00000640713394789387_015_00001179070912063101_116_00003338886116348349_115_00001224744871391589_0,
  115_00000652413241617146_117_00027335103166186175_114_00000087449998614862_016_00008138779842101795_016_00012262029556105076_116_00003338886116348349_115_00001224744871391589_0,
  115_00000652413241617146_117_00027335103166186175_016_00008212176378334819_115_00001383056581313304_015_00001273334999157914_116_00003338886116348349_115_00001224744871391589_0,
  116_00007024092752447672_117_00027335103166186175_116_00002664959696550374_117_00030966846025845146_016_00013204670427053204_116_00003338886116348349_015_00000816496580927726_0,
  115_00000652413241617146_117_00027335103166186175_116_00005398188761521525_015_00001566252835416852_015_00001351888405070258_116_00003338886116348349_015_00000816496580927726_0,
  116_00007024092752447672_117_00027335103166186175_115_00000829875838149091_015_00001034574607230803_016_00013833097674351955_116_00003338886116348349_015_00000816496580927726_0,
  115_00000652413241617146_117_00027335103166186175_117_00020513776615568505_016_00006734346786516008_016_00014147311298001333_116_00003338886116348349_015_00000816496580927726_0,
  116_00007024092752447672_117_00027335103166186175_116_00010864646891463827_016_00019474560933615657_016_00014461524921650708_116_00003338886116348349_115_00001224744871391589_0,
  116_00007524053088724167_116_00003407519172674287_116_00008577659306487967_016_00006333080199205777_016_00014932845357124773_116_00003338886116348349_015_00000816496580927726_1,
  115_00000652413241617146_117_00020595014605633308_017_00004587306634166558_116_00002595101368446733_116_00016959837443286896_116_00003338886116348349_015_00000816496580927726_0,
  116_00007024092752447672_117_00027335103166186175_117_00007684334065703917_017_00024207309729310825_116_00016645623819637518_116_00003338886116348349_115_00001224744871391589_0,
  116_00007024092752447672_117_00027335103166186175_019_00068269368420777075_117_00042001677176876356_116_00016174303384163455_116_00003338886116348349_015_00000816496580927726_0,
  116_00007024092752447672_116_00003407519172674287_117_00049519472815262355_016_00004326747262654651_116_00015860089760514078_116_00003338886116348349_015_00000816496580927726_0,
  116_00007024092752447672_117_00027335103166186175_116_00010362625226469127_016_00022584376985269903_116_00015545876136864702_116_00003338886116348349_015_00000816496580927726_0,
  116_00006024172079894964_117_00020595014605633308_017_00024110371383960497_016_00005028963790447548_116_00015231662513215327_116_00003338886116348349_015_00000816496580927726_0,
  116_00005524211743618752_116_00001385492604507661_116_00007964077271494443_016_00009041629663549801_115_00001491744888956595_116_00003338886116348349_015_00000816496580927726_0,
  116_00006024172079894964_116_00001385492604507661_017_00006818514034143008_117_00033976345430671806_116_00014603235265916574_116_00003338886116348349_115_00001224744871391589_0,
  116_00005524211743618752_116_00001385492604507661_016_00016579204128246507_116_00017241331805269953_116_00014131914830442511_116_00003338886116348349_115_00001224744871391589_0,
  116_00005524211743618752_116_00001385492604507661_115_00000829875838149091_016_00009944479484997806_116_00013660594394968446_116_00003338886116348349_015_00000816496580927726_0,
  116_00005524211743618752_116_00001385492604507661_117_00002664117415756904_017_00021197810324484165_115_00001334638077131907_116_00003338886116348349_015_00000816496580927726_0,
  116_00006024172079894964_117_00020595014605633308_016_00023105485773177623_115_00001944829803547619_116_00013032167147669695_116_00003338886116348349_015_00000816496580927726_0,
  116_00006024172079894964_116_00001385492604507661_016_00005311606758365435_115_00000640713394789387_116_00012717953524020318_116_00003338886116348349_015_00000816496580927726_0,
  115_00000652413241617146_117_00020595014605633308_016_00019089312453220013_116_00018344814920373074_116_00012403739900370943_116_00003338886116348349_015_00000816496580927726_0,
  116_00006024172079894964_117_00020595014605633308_116_00005063507651525058_016_00004828330496792433_116_00012089526276721567_116_00003338886116348349_115_00001224744871391589_0,
  115_00000652413241617146_117_00020595014605633308_116_00009860603561474425_016_00010546379365963146_116_00011618205841247502_116_00003338886116348349_115_00001224744871391589_0,
  116_00006024172079894964_117_00020595014605633308_116_00017502488906393767_015_00002348722680671791_115_00001114688540577344_116_00003338886116348349_015_00000816496580927726_0,
  116_00006024172079894964_117_00027335103166186175_116_00008633439491487378_016_00008239096488929353_116_00010832671782124061_116_00003338886116348349_115_00001224744871391589_0,
  116_00006024172079894964_116_00001385492604507661_115_00001142244874145794_016_00009342579604032467_116_00010361351346649998_116_00003338886116348349_015_00000816496580927726_0,
  116_00006024172079894964_117_00020595014605633308_116_00011310888371459118_015_00001034574607230803_116_00010047137723000623_116_00003338886116348349_015_00000816496580927726_0,
  116_00006024172079894964_117_00007114837484523745_116_00011589789296456174_016_00021681527163821896_116_00009732924099351247_116_00003338886116348349_115_00001224744871391589_0,
  116_00006024172079894964_117_00007114837484523745_016_00005032705833368378_115_00000811251694396233_116_00009261603663877183_116_00003338886116348349_015_00000816496580927726_0,
  116_00005524211743618752_118_00003747489239670474_016_00013232393028281833_116_00014332149047270821_116_00008947390040227806_116_00003338886116348349_015_00000816496580927726_0,
  116_00006024172079894964_118_00003747489239670474_117_00004895324815733354_117_00016922515469987276_115_00000863317641657843_016_00029950108064592316_115_00001224744871391589_0,
  116_00005524211743618752_118_00003747489239670474_015_00001005292248331539_115_00001272708269802992_115_00000784764235745499_116_00003338886116348349_015_00000816496580927726_0,
  116_00006024172079894964_117_00007114837484523745_116_00002441838956552729_117_00048020675986529676_116_00007533428733805614_116_00003338886116348349_115_00001224744871391589_0,
  116_00006024172079894964_117_00020595014605633308_117_00049519472815262355_015_00000312294750072398_115_00000706210829833155_116_00003338886116348349_015_00000816496580927726_0,
  116_00006024172079894964_116_00001385492604507661_017_00013512136234072358_116_00001190668312860946_116_00006747894674682174_016_00029950108064592316_115_00001224744871391589_0,
  116_00005524211743618752_117_00007114837484523745_117_00021071578465562615_117_00028960513089293993_116_00005962360615558734_116_00003338886116348349_115_00001224744871391589_0,
  116_00006024172079894964_117_00007114837484523745_116_00010474185596467949_015_00000723593002065379_115_00000549104018008467_116_00003338886116348349_015_00000816496580927726_0,
  116_00005524211743618752_117_00007114837484523745_116_00009693263006476192_016_00006533713492860893_116_00005176826556435293_116_00003338886116348349_015_00000816496580927726_0,
  116_00006024172079894964_117_00007114837484523745_117_00007684334065703917_118_00028781849141293357_117_00048626129327859174_116_00003338886116348349_015_00000816496580927726_0,
  116_00006024172079894964_116_00001385492604507661_116_00013988337251430858_016_00021982477104304565_117_00045483993091365416_116_00003338886116348349_115_00001224744871391589_0,
  116_00007024092752447672_117_00027335103166186175_116_00006458012276510339_016_00002721680913413756_117_00040770788736624775_116_00003338886116348349_015_00000816496580927726_0,
  116_00007524053088724167_117_00027335103166186175_117_00020513776615568505_117_00005887684318956068_117_00037628652500131016_116_00003338886116348349_115_00001224744871391589_0,
  116_00007524053088724167_116_00003407519172674287_116_00006179111351513282_016_00003524214088034203_117_00032915448145390375_116_00003338886116348349_015_00000816496580927726_0,
  116_00007024092752447672_116_00003407519172674287_017_00015185541784054696_116_00001892884840653836_117_00029773311908896616_116_00003338886116348349_115_00001224744871391589_0,
  116_00007524053088724167_116_00003407519172674287_117_00031112011765456643_016_00004828330496792433_117_00025060107554155975_116_00003338886116348349_115_00001224744871391589_0,
  116_00007024092752447672_117_00027335103166186175_017_00030246191733895733_116_00006708083888376544_117_00020346903199415334_016_00029950108064592316_115_00001224744871391589_0,
  116_00007524053088724167_117_00027335103166186175_016_00010331823408312446_116_00013629932519477927_117_00012491562608180934_116_00003338886116348349_015_00000816496580927726_0,
  116_00007524053088724167_117_00020595014605633308_015_00006014352861278669_116_00027975213015818476_117_00009349426371687174_116_00003338886116348349_015_00000816496580927726_1,
  116_00007024092752447672_117_00020595014605633308_115_00001365365614143439_016_00019474560933615657_118_00062072901351934134_116_00003338886116348349_015_00000816496580927726_0]

/-- lr/data.csv 8402-8501 -/
def dataCsv84 : List ℕ := [
  116_00007024092752447672_117_00027335103166186175_118_00032219192657510165_017_00007153479768626296_117_00003065153898699653_116_00003338886116348349_015_00000816496580927726_0,
  116_00007524053088724167_116_00004081528028729957_016_00007375473603343651_116_00008212833590789884_019_00007698233779410749_016_00029950108064592316_115_00001224744871391589_0,
  116_00007524053088724167_116_00003407519172674287_116_00009414362081479135_016_00012452395655686714_017_00007932322929028508_116_00003338886116348349_015_00000816496580927726_0,
  116_00007524053088724167_117_00027335103166186175_117_00042825850615333005_016_00005129280437275106_017_00011074459165522269_116_00003338886116348349_015_00000816496580927726_0,
  116_00008024013425000663_116_00003407519172674287_018_00034717029341783334_117_00033976345430671806_016_00001421659540201603_116_00003338886116348349_015_00000816496580927726_0,
  116_00008024013425000663_116_00003407519172674287_117_00030554209915462527_017_00017185144451381926_016_00001735873163850979_116_00003338886116348349_115_00001224744871391589_0,
  116_00008024013425000663_116_00003407519172674287_116_00010864646891463827_016_00005329913730930215_016_00002207193599325043_116_00003338886116348349_115_00001224744871391589_0,
  116_00008024013425000663_116_00003407519172674287_116_00010139504486471482_015_00001014511277865292_016_00002678514034799107_116_00003338886116348349_015_00000816496580927726_0,
  116_00007524053088724167_117_00027335103166186175_016_00001853235288401937_116_00007009033828859209_016_00002992727658448483_116_00003338886116348349_115_00001224744871391589_0,
  116_00007524053088724167_117_00027335103166186175_016_00017973708753231787_116_00013128349285340146_016_00003464048093922547_116_00003338886116348349_015_00000816496580927726_0,
  116_00007524053088724167_116_00003407519172674287_017_00005145108484160671_017_00045273805563097663_016_00003778261717571923_116_00003338886116348349_015_00000816496580927726_0,
  116_00007024092752447672_116_00001385492604507661_116_00002386058771553318_117_00022941514279640599_016_00004092475341221299_116_00003338886116348349_015_00000816496580927726_0,
  116_00007024092752447672_117_00020595014605633308_116_00012538052441446166_016_00009743846191342698_017_00044066889648706753_116_00003338886116348349_115_00001224744871391589_0,
  116_00007024092752447672_117_00020595014605633308_115_00000651379246150975_016_00009743846191342698_017_00048780094003447394_116_00003338886116348349_115_00001224744871391589_0,
  116_00007024092752447672_116_00001385492604507661_016_00016913885238242974_116_00019949881269613972_016_00005349329835818804_116_00003338886116348349_015_00000816496580927726_0,
  115_00000652413241617146_117_00007114837484523745_116_00005844430241516816_016_00013054295536652054_016_00005663543459468179_116_00003338886116348349_115_00001224744871391589_0,
  116_00006024172079894964_016_00000636533963658965_016_00002578377693394283_116_00008714416824927665_016_00006134863894942243_116_00003338886116348349_115_00001224744871391589_0,
  116_00006024172079894964_016_00000636533963658965_016_00009216219708324221_116_00009316316705893005_016_00006606184330416307_016_00029950108064592316_115_00001224744871391589_0,
  116_00005524211743618752_017_00013105428197142516_016_00024109529103167024_116_00016840065217959728_016_00007391718389539748_116_00003338886116348349_015_00000816496580927726_0,
  116_00005024251407342256_017_00019845516757699214_116_00006011770796515049_118_00008718519775782523_016_00007705932013189124_116_00003338886116348349_015_00000816496580927726_0,
  116_00005524211743618752_016_00002658560531825208_018_00040295047841724455_117_00022941514279640599_016_00008020145636838499_116_00003338886116348349_015_00000816496580927726_0,
  116_00005524211743618752_017_00019845516757699214_116_00002386058771553318_116_00003698584483549854_016_00008334359260487876_116_00003338886116348349_015_00000816496580927726_0,
  116_00005524211743618752_017_00019845516757699214_116_00016498445576404364_016_00023085960219407684_016_00008648572884137251_016_00029950108064592316_115_00001224744871391589_0,
  116_00005024251407342256_016_00002658560531825208_116_00004840386911527413_016_00006232763552378227_016_00009434106943260692_116_00003338886116348349_015_00000816496580927726_0,
  115_00000452429107106576_017_00040065782439365477_116_00008856560231485022_016_00004728013849964882_016_00009748320566910068_116_00003338886116348349_015_00000816496580927726_0,
  117_00040243307347895485_017_00040065782439365477_016_00001574334363404881_115_00000159193490017117_016_00010062534190559445_116_00003338886116348349_015_00000816496580927726_0,
  115_00000452429107106576_017_00033325693878808776_016_00004976925648368967_117_00040998510708600777_015_00001037674781420882_116_00003338886116348349_015_00000816496580927726_0,
  115_00000452429107106576_016_00002658560531825208_117_00018840371065586167_016_00006132446905550669_016_00010690961437858195_116_00003338886116348349_015_00000816496580927726_0,
  116_00005024251407342256_017_00019845516757699214_016_00016077182463251805_116_00012024866170237025_016_00011005175061507573_116_00003338886116348349_115_00001224744871391589_0,
  116_00005024251407342256_017_00019845516757699214_017_00021321362133989932_019_00013131449069732513_016_00011476495496981636_116_00003338886116348349_015_00000816496580927726_0,
  116_00005524211743618752_017_00013105428197142516_116_00013095854291440279_016_00017267594703409421_015_00001179070912063101_116_00003338886116348349_015_00000816496580927726_0,
  116_00005524211743618752_016_00000636533963658965_116_00011980250591452053_016_00014659361885892956_016_00012104922744280389_016_00029950108064592316_115_00001224744871391589_0,
  116_00006024172079894964_118_00003747489239670474_118_00009907118657745668_118_00008718519775782523_016_00012890456803403827_116_00003338886116348349_015_00000816496580927726_0,
  116_00006024172079894964_016_00000636533963658965_117_00021071578465562615_016_00008740679723067134_016_00013204670427053204_116_00003338886116348349_115_00001224744871391589_0,
  115_00000652413241617146_117_00007114837484523745_016_00006427210458353659_116_00010921383055133904_016_00013675990862527267_116_00003338886116348349_115_00001224744871391589_0,
  115_00000652413241617146_118_00003747489239670474_117_00011031145165668592_116_00001892884840653836_016_00014147311298001333_116_00003338886116348349_115_00001224744871391589_0,
  115_00000652413241617146_117_00007114837484523745_116_00009358581896479724_016_00011348912540583593_016_00014618631733475396_116_00003338886116348349_015_00000816496580927726_0,
  115_00000652413241617146_116_00001385492604507661_115_00001995681704636786_016_00025995142977406824_016_00014932845357124773_116_00003338886116348349_015_00000816496580927726_1,
  116_00007024092752447672_116_00001385492604507661_117_00038921237665374214_017_00028219975602413067_016_00015247058980774149_116_00003338886116348349_015_00000816496580927726_0,
  116_00007024092752447672_116_00001385492604507661_016_00005478947313363668_116_00005403967479618307_016_00015561272604423524_116_00003338886116348349_015_00000816496580927726_0,
  116_00007024092752447672_116_00001385492604507661_116_00009414362081479135_016_00016063794941478742_116_00016959837443286896_116_00003338886116348349_015_00000816496580927726_0,
  116_00007024092752447672_117_00007114837484523745_016_00005088486018367789_116_00009416633352720559_116_00016645623819637518_116_00003338886116348349_015_00000816496580927726_0,
  116_00007024092752447672_118_00003747489239670474_117_00012146748865656816_117_00009900350192058306_116_00016331410195988143_116_00003338886116348349_015_00000816496580927726_0,
  116_00007024092752447672_117_00007114837484523745_016_00007208133048345416_116_00007711250356652106_116_00016017196572338768_116_00003338886116348349_115_00001224744871391589_0,
  116_00007024092752447672_117_00007114837484523745_016_00015575160798257104_116_00015134682221891271_116_00015545876136864702_116_00003338886116348349_115_00001224744871391589_0,
  116_00007024092752447672_118_00003747489239670474_018_00012404955342018832_117_00030966846025845146_115_00001507455570139064_116_00003338886116348349_115_00001224744871391589_0,
  116_00007524053088724167_117_00007114837484523745_117_00031669813615450754_017_00021197810324484165_116_00014603235265916574_116_00003338886116348349_015_00000816496580927726_0,
  116_00007024092752447672_016_00000636533963658965_115_00000556552931651976_016_00009944479484997806_114_00000142890216422672_116_00003338886116348349_015_00000816496580927726_0,
  116_00007524053088724167_118_00003747489239670474_116_00002609179511550963_017_00012169312110004112_116_00013974808018617824_116_00003338886116348349_015_00000816496580927726_0,
  116_00008024013425000663_117_00007114837484523745_016_00010387603593311858_116_00012225499463892138_116_00013660594394968446_116_00003338886116348349_015_00000816496580927726_0,
  116_00008024013425000663_118_00003747489239670474_017_00011280928834095907_017_00042264306158271003_115_00001334638077131907_116_00003338886116348349_015_00000816496580927726_0,
  116_00007524053088724167_118_00003747489239670474_116_00005788650056517404_015_00000252104761975864_116_00013032167147669695_116_00003338886116348349_015_00000816496580927726_0,
  116_00007024092752447672_118_00003747489239670474_116_00001493575811562738_117_00024947847216191754_116_00012717953524020318_116_00003338886116348349_115_00001224744871391589_0,
  116_00007024092752447672_117_00007114837484523745_017_00014069938084066472_117_00028960513089293993_116_00012246633088546255_116_00003338886116348349_015_00000816496580927726_0,
  116_00007024092752447672_118_00003747489239670474_117_00009357739615686254_017_00003140813895523986_116_00011932419464896877_116_00003338886116348349_015_00000816496580927726_0,
  116_00007024092752447672_117_00007114837484523745_116_00010195284671470892_016_00019574877580443213_116_00011618205841247502_116_00003338886116348349_015_00000816496580927726_0,
  116_00007024092752447672_117_00007114837484523745_016_00000960752328411357_117_00013913016065160544_116_00011303992217598127_116_00003338886116348349_015_00000816496580927726_0,
  116_00007024092752447672_117_00007114837484523745_116_00008131417826492676_016_00005530547024585329_116_00010989778593948751_116_00003338886116348349_015_00000816496580927726_0,
  115_00000652413241617146_117_00007114837484523745_016_00011949448773295372_114_00000132286659321677_116_00010675564970299374_116_00003338886116348349_015_00000816496580927726_0,
  115_00000652413241617146_117_00007114837484523745_016_00006259869903355426_116_00010520116467823681_116_00010361351346649998_116_00003338886116348349_015_00000816496580927726_0,
  115_00000652413241617146_117_00007114837484523745_116_00009302801711480313_016_00014759678532720513_116_00010047137723000623_116_00003338886116348349_015_00000816496580927726_0,
  115_00000652413241617146_117_00007114837484523745_116_00005175068021523881_016_00003323580794379088_116_00009732924099351247_116_00003338886116348349_015_00000816496580927726_0,
  115_00000652413241617146_116_00001385492604507661_117_00021071578465562615_016_00004728013849964882_115_00000941871047570187_116_00003338886116348349_115_00001224744871391589_0,
  115_00000652413241617146_117_00007114837484523745_116_00007127374496503274_016_00005129280437275106_116_00008947390040227806_116_00003338886116348349_115_00001224744871391589_0,
  116_00007024092752447672_117_00020595014605633308_016_00007431253788343062_116_00012526449404374806_116_00008476069604753742_016_00029950108064592316_115_00001224744871391589_0,
  115_00000652413241617146_116_00001385492604507661_116_00003557442656540954_017_00005147146832075141_116_00007690535545630302_116_00003338886116348349_115_00001224744871391589_0,
  115_00000652413241617146_116_00001385492604507661_117_00038921237665374214_115_00000159193490017117_116_00007219215110156237_116_00003338886116348349_015_00000816496580927726_0,
  116_00007024092752447672_116_00001385492604507661_016_00009216219708324221_116_00011723916229754356_116_00006905001486506862_116_00003338886116348349_015_00000816496580927726_0,
  116_00007024092752447672_117_00020595014605633308_116_00004226804876533889_117_00008897183723782728_116_00006590787862857486_016_00029950108064592316_115_00001224744871391589_0,
  116_00007024092752447672_117_00020595014605633308_116_00014434578731426149_014_00000241894433345108_116_00005805253803734046_116_00003338886116348349_115_00001224744871391589_0,
  115_00000652413241617146_117_00007114837484523745_116_00004171024691534478_116_00001993201487481394_116_00005333933368259982_116_00003338886116348349_015_00000816496580927726_0,
  116_00007024092752447672_116_00001385492604507661_116_00011534009111456762_016_00006433396846033335_116_00005019719744610606_116_00003338886116348349_015_00000816496580927726_0,
  116_00007524053088724167_117_00020595014605633308_016_00005311606758365435_117_00021938347811365091_115_00000470550612096123_116_00003338886116348349_015_00000816496580927726_0,
  116_00007024092752447672_116_00001385492604507661_115_00000606755098151446_015_00000312294750072398_116_00004391292497311854_116_00003338886116348349_115_00001224744871391589_0,
  116_00007524053088724167_117_00020595014605633308_117_00008799937765692141_016_00004627697203137324_115_00000391997206183779_116_00003338886116348349_115_00001224744871391589_0,
  116_00007524053088724167_117_00020595014605633308_017_00010165325134107683_117_00022941514279640599_117_00034486516263637257_116_00003338886116348349_115_00001224744871391589_0,
  116_00007524053088724167_117_00027335103166186175_016_00002578377693394283_116_00007811567003479657_117_00029773311908896616_116_00003338886116348349_015_00000816496580927726_0,
  116_00007524053088724167_117_00027335103166186175_016_00002243696583397816_116_00006507450594721428_117_00026631175672402857_016_00029950108064592316_115_00001224744871391589_0,
  116_00007524053088724167_117_00020595014605633308_116_00010306845041469714_015_00002087899398920144_117_00018775835081168454_116_00003338886116348349_115_00001224744871391589_0,
  116_00007024092752447672_117_00020595014605633308_017_00049211454633695556_116_00006607767241548985_117_00014062630726427813_116_00003338886116348349_015_00000816496580927726_0,
  116_00008024013425000663_117_00027335103166186175_116_00003445882286542132_117_00044008010113427437_117_00010920494489934053_116_00003338886116348349_015_00000816496580927726_0,
  116_00008523973761276875_116_00004081528028729957_016_00003136179543388396_116_00011021699701961463_117_00007778358253440293_116_00003338886116348349_115_00001224744871391589_0,
  116_00008024013425000663_116_00003407519172674287_117_00010473343315674478_116_00001892884840653836_117_00003065153898699653_116_00003338886116348349_015_00000816496580927726_0,
  116_00008523973761276875_116_00004081528028729957_017_00044191237983748544_116_00008513783531272554_019_00007698233779410749_116_00003338886116348349_015_00000816496580927726_0,
  116_00008024013425000663_116_00003407519172674287_116_00007908297086495032_015_00001034574607230803_017_00003219118574287868_116_00003338886116348349_015_00000816496580927726_0,
  116_00008024013425000663_116_00003407519172674287_117_00049519472815262355_015_00000793814654844668_017_00006361254810781627_116_00003338886116348349_015_00000816496580927726_0,
  116_00007524053088724167_116_00003407519172674287_117_00021071578465562615_018_00021376474272484798_017_00009503391047275388_116_00003338886116348349_115_00001224744871391589_0,
  116_00008024013425000663_116_00004081528028729957_116_00008187198011492087_015_00001014511277865292_016_00001421659540201603_116_00003338886116348349_015_00000816496580927726_0,
  116_00008024013425000663_116_00004081528028729957_116_00008577659306487967_016_00003223264147551537_016_00001735873163850979_116_00003338886116348349_015_00000816496580927726_0,
  116_00008024013425000663_116_00004081528028729957_117_00043383652465327116_016_00006333080199205777_016_00002050086787500355_116_00003338886116348349_015_00000816496580927726_0,
  116_00007524053088724167_117_00027335103166186175_116_00009749043191475603_016_00018772344405822765_016_00002364300411149731_116_00003338886116348349_115_00001224744871391589_0,
  116_00007524053088724167_116_00003407519172674287_016_00002243696583397816_117_00013913016065160544_016_00002835620846623795_116_00003338886116348349_015_00000816496580927726_0,
  116_00008024013425000663_116_00003407519172674287_117_00013820154415639155_116_00001190668312860946_016_00003149834470273171_116_00003338886116348349_115_00001224744871391589_0,
  116_00008523973761276875_116_00003407519172674287_017_00011838730684090021_117_00030966846025845146_017_00036211549057472353_116_00003338886116348349_115_00001224744871391589_0,
  116_00008523973761276875_116_00003407519172674287_018_00017982973841959956_117_00032973178962396227_016_00004092475341221299_116_00003338886116348349_015_00000816496580927726_0,
  116_00008523973761276875_116_00004081528028729957_016_00007208133048345416_116_00012927715991685031_017_00044066889648706753_116_00003338886116348349_015_00000816496580927726_0,
  116_00008523973761276875_116_00004081528028729957_016_00015463600428258282_116_00017441965098925065_016_00004720902588520051_116_00003338886116348349_115_00001224744871391589_0,
  116_00008523973761276875_116_00004081528028729957_117_00016609163665609716_116_00005805234066928531_016_00005192223023994115_116_00003338886116348349_115_00001224744871391589_0,
  116_00008024013425000663_117_00027335103166186175_116_00003334321916543309_117_00021938347811365091_016_00005663543459468179_116_00003338886116348349_015_00000816496580927726_0,
  116_00008024013425000663_117_00027335103166186175_015_00000648299064335307_116_00009817899940030786_016_00005977757083117555_116_00003338886116348349_015_00000816496580927726_0]

/-- lr/data.csv 8502-8601 -/
def dataCsv85 : List ℕ := [
  116_00008523973761276875_116_00003407519172674287_016_00009606681003320101_116_00009717583293203229_016_00006291970706766932_116_00003338886116348349_015_00000816496580927726_0,
  116_00008024013425000663_117_00020595014605633308_017_00023552569533966383_116_00005403967479618307_016_00006606184330416307_116_00003338886116348349_015_00000816496580927726_0,
  116_00007024092752447672_116_00001385492604507661_116_00014490358916425559_016_00015963478294651186_016_00006920397954065683_016_00029950108064592316_115_00001224744871391589_0,
  116_00007524053088724167_116_00001385492604507661_116_00003947903951536833_016_00000915981270517738_016_00007705932013189124_116_00003338886116348349_015_00000816496580927726_0,
  116_00008024013425000663_117_00020595014605633308_116_00006681133016507984_017_00013172478578279617_016_00008020145636838499_116_00003338886116348349_015_00000816496580927726_0,
  116_00008024013425000663_117_00020595014605633308_117_00004895324815733354_117_00013913016065160544_016_00008334359260487876_116_00003338886116348349_015_00000816496580927726_0,
  116_00008024013425000663_117_00027335103166186175_016_00009550900818320689_115_00001272708269802992_016_00008648572884137251_116_00003338886116348349_015_00000816496580927726_1,
  116_00008024013425000663_117_00020595014605633308_117_00011588947015662704_118_00018750184458538297_016_00008962786507786628_116_00003338886116348349_015_00000816496580927726_0,
  116_00008024013425000663_117_00020595014605633308_015_00000782171508333894_116_00006708083888376544_016_00009277000131436004_116_00003338886116348349_115_00001224744871391589_0,
  116_00008024013425000663_117_00020595014605633308_015_00001847573041822649_116_00017542281745752621_016_00009748320566910068_116_00003338886116348349_115_00001224744871391589_0,
  116_00008523973761276875_117_00020595014605633308_117_00030554209915462527_016_00004326747262654651_016_00010219641002384132_116_00003338886116348349_015_00000816496580927726_0,
  116_00008024013425000663_117_00020595014605633308_117_00045614859865303564_017_00042264306158271003_016_00010533854626033508_116_00003338886116348349_015_00000816496580927726_0,
  116_00008523973761276875_117_00027335103166186175_018_00040295047841724455_117_00037989011303774045_016_00010848068249682883_016_00029950108064592316_115_00001224744871391589_0,
  116_00009023934097553371_116_00003407519172674287_115_00000339010210154272_117_00034979511898947385_016_00011633602308806323_116_00003338886116348349_115_00001224744871391589_0,
  116_00009023934097553371_116_00004081528028729957_116_00005119287836524469_016_00007135613373826232_016_00012104922744280389_116_00003338886116348349_015_00000816496580927726_0,
  116_00009023934097553371_116_00004081528028729957_116_00005342408576522114_016_00005430230377757772_016_00012419136367929764_116_00003338886116348349_015_00000816496580927726_0,
  116_00008523973761276875_117_00027335103166186175_117_00006568730365715691_116_00009115683412237894_015_00001273334999157914_116_00003338886116348349_015_00000816496580927726_0,
  116_00008523973761276875_117_00027335103166186175_117_00038921237665374214_016_00014859995179548064_016_00013047563615228517_116_00003338886116348349_115_00001224744871391589_0,
  116_00008523973761276875_117_00027335103166186175_016_00007933275453337764_116_00012927715991685031_015_00001351888405070258_116_00003338886116348349_115_00001224744871391589_0,
  116_00008523973761276875_117_00027335103166186175_116_00006625352831508573_016_00004126113968999543_016_00013990204486176645_116_00003338886116348349_015_00000816496580927726_0,
  116_00008523973761276875_116_00003407519172674287_018_00023560992341901083_016_00009944479484997806_015_00001430441810982602_116_00003338886116348349_115_00001224744871391589_0,
  116_00008024013425000663_116_00003407519172674287_116_00009079680971482668_016_00010446062719135587_016_00014775738545300083_116_00003338886116348349_015_00000816496580927726_0,
  116_00008523973761276875_116_00004081528028729957_014_00000051442662033672_115_00001021916652734101_116_00016959837443286896_016_00029950108064592316_115_00001224744871391589_0,
  116_00008523973761276875_117_00047555368847852436_117_00005453126665727467_017_00017185144451381926_116_00016174303384163455_016_00029950108064592316_115_00001224744871391589_0,
  116_00008523973761276875_116_00004081528028729957_116_00003947903951536833_016_00006232763552378227_116_00015388769325040015_116_00003338886116348349_015_00000816496580927726_0,
  116_00008523973761276875_116_00004081528028729957_116_00008968120601483845_016_00012352079008859156_115_00001507455570139064_116_00003338886116348349_015_00000816496580927726_0,
  116_00008523973761276875_117_00047555368847852436_116_00007685176346497387_016_00011950812421548933_116_00014760342077741262_116_00003338886116348349_015_00000816496580927726_0,
  116_00008024013425000663_117_00047555368847852436_117_00004337522965739242_116_00002595101368446733_116_00014446128454091887_116_00003338886116348349_015_00000816496580927726_0,
  116_00008024013425000663_117_00047555368847852436_116_00001493575811562738_117_00042001677176876356_116_00014131914830442511_116_00003338886116348349_015_00000816496580927726_0,
  116_00007524053088724167_116_00004081528028729957_117_00009357739615686254_016_00007436563314308898_116_00013817701206793134_116_00003338886116348349_115_00001224744871391589_0,
  116_00007524053088724167_117_00047555368847852436_017_00042517832433766206_116_00008212833590789884_115_00001334638077131907_116_00003338886116348349_115_00001224744871391589_0,
  116_00007024092752447672_117_00047555368847852436_116_00005007727466525647_016_00006533713492860893_116_00012875060335845006_116_00003338886116348349_015_00000816496580927726_0,
  116_00007024092752447672_116_00004081528028729957_116_00012482272256446754_015_00001556221170734096_115_00001256084671219563_116_00003338886116348349_015_00000816496580927726_0,
  116_00007024092752447672_116_00004081528028729957_116_00004115244506535067_017_00011166145641728534_116_00012246633088546255_116_00003338886116348349_115_00001224744871391589_0,
  116_00007024092752447672_116_00003407519172674287_116_00007517835791499152_016_00003323580794379088_115_00001177531265307219_116_00003338886116348349_115_00001224744871391589_0,
  116_00007024092752447672_116_00003407519172674287_017_00004587306634166558_016_00004828330496792433_116_00011303992217598127_116_00003338886116348349_015_00000816496580927726_0,
  116_00007024092752447672_116_00003407519172674287_116_00006290671721512106_016_00005430230377757772_116_00010989778593948751_116_00003338886116348349_115_00001224744871391589_0,
  116_00007024092752447672_116_00003407519172674287_016_00010666504518308915_116_00009817899940030786_116_00010518458158474686_116_00003338886116348349_015_00000816496580927726_0,
  116_00007524053088724167_116_00004081528028729957_017_00005145108484160671_117_00022941514279640599_115_00001020424453482531_116_00003338886116348349_015_00000816496580927726_0,
  116_00007524053088724167_116_00004081528028729957_117_00012146748865656816_018_00021376474272484798_116_00009890030911175934_116_00003338886116348349_015_00000816496580927726_0,
  116_00007024092752447672_116_00003407519172674287_016_00008267956563334231_116_00010720749761478792_116_00009575817287526558_116_00003338886116348349_015_00000816496580927726_0,
  116_00007524053088724167_116_00003407519172674287_016_00011112745998304205_116_00014833732281408603_116_00009261603663877183_116_00003338886116348349_015_00000816496580927726_0,
  116_00008024013425000663_116_00004081528028729957_116_00001493575811562738_116_00004701750951825417_116_00008947390040227806_016_00029950108064592316_115_00001224744871391589_0,
  116_00007524053088724167_116_00004081528028729957_116_00009693263006476192_016_00008740679723067134_116_00008161855981104366_116_00003338886116348349_115_00001224744871391589_0,
  116_00007524053088724167_116_00004081528028729957_016_00026340736503143476_116_00019047031448165967_116_00007690535545630302_016_00029950108064592316_115_00001224744871391589_0,
  116_00008024013425000663_117_00047555368847852436_016_00014905798578264169_116_00012426132757547248_116_00006905001486506862_116_00003338886116348349_015_00000816496580927726_0,
  116_00008024013425000663_117_00047555368847852436_016_00009885581928317156_114_00000116235995829268_116_00006590787862857486_116_00003338886116348349_015_00000816496580927726_0,
  116_00008024013425000663_116_00004081528028729957_016_00007096572678346594_116_00015736582102856609_115_00000627657423920811_116_00003338886116348349_115_00001224744871391589_0,
  116_00007524053088724167_116_00004081528028729957_017_00021879163983984046_116_00003698584483549854_116_00005805253803734046_116_00003338886116348349_015_00000816496580927726_0,
  116_00008523973761276875_117_00047555368847852436_017_00010723126984101795_117_00027957346621018414_115_00000549104018008467_116_00003338886116348349_015_00000816496580927726_0,
  116_00008523973761276875_116_00005429545740840913_116_00004617266171529768_016_00005530547024585329_116_00005176826556435293_116_00003338886116348349_015_00000816496580927726_0,
  116_00009023934097553371_114_00000061035545968962_117_00045614859865303564_016_00009041629663549801_117_00048626129327859174_116_00003338886116348349_115_00001224744871391589_0,
  116_00009023934097553371_114_00000061035545968962_116_00004003684136536244_017_00045273805563097663_116_00004391292497311854_116_00003338886116348349_015_00000816496580927726_0,
  116_00009523894433829583_115_00000677756345295187_016_00006817671753349538_117_00017925681938262783_117_00040770788736624775_116_00003338886116348349_115_00001224744871391589_0,
  116_00009523894433829583_115_00000677756345295187_016_00002968838988390162_116_00006106184007411204_117_00036057584381884134_116_00003338886116348349_015_00000816496580927726_0,
  116_00009023934097553371_115_00000677756345295187_016_00003191959728387807_117_00027957346621018414_117_00032915448145390375_116_00003338886116348349_015_00000816496580927726_0,
  116_00009023934097553371_115_00000677756345295187_116_00002776520066549197_017_00006150313300350718_117_00029773311908896616_116_00003338886116348349_015_00000816496580927726_0,
  116_00008523973761276875_115_00000677756345295187_117_00037805633965385993_016_00008339413135756903_117_00026631175672402857_116_00003338886116348349_015_00000816496580927726_0,
  116_00008523973761276875_115_00000677756345295187_117_00018840371065586167_017_00013172478578279617_117_00023489039435909095_116_00003338886116348349_115_00001224744871391589_0,
  116_00008523973761276875_115_00000677756345295187_117_00011031145165668592_019_00013131449069732513_117_00018775835081168454_116_00003338886116348349_015_00000816496580927726_0,
  116_00008523973761276875_115_00000677756345295187_116_00007294715051501508_016_00005430230377757772_117_00015633698844674693_116_00003338886116348349_015_00000816496580927726_0,
  116_00009023934097553371_116_00007451572309007539_116_00011534009111456762_016_00004427063909482209_117_00012491562608180934_116_00003338886116348349_015_00000816496580927726_0,
  116_00009523894433829583_116_00007451572309007539_116_00010474185596467949_016_00012452395655686714_117_00009349426371687174_116_00003338886116348349_015_00000816496580927726_0,
  116_00010023854770106078_116_00007451572309007539_116_00002162938031555673_117_00032973178962396227_118_00062072901351934134_116_00003338886116348349_015_00000816496580927726_0,
  116_00010023854770106078_116_00008799590021118496_017_00041960030583772095_116_00009316316705893005_117_00003065153898699653_116_00003338886116348349_115_00001224744871391589_0,
  116_00010023854770106078_116_00008125581165062826_116_00002776520066549197_117_00034979511898947385_018_00016480504560409875_116_00003338886116348349_015_00000816496580927726_0,
  116_00010523815106382575_116_00008799590021118496_015_00001183788840329655_116_00013429299225822813_017_00004790186692534748_116_00003338886116348349_115_00001224744871391589_0,
  116_00010023854770106078_116_00008799590021118496_117_00015493559965621492_016_00005831496965067996_017_00009503391047275388_116_00003338886116348349_015_00000816496580927726_0,
  116_00010523815106382575_116_00009473598877173782_016_00008491077303331875_116_00010419799820996123_017_00012645527283769148_116_00003338886116348349_015_00000816496580927726_0,
  116_00010523815106382575_116_00009473598877173782_015_00001217256951329302_116_00012526449404374806_016_00001578766352026291_116_00003338886116348349_015_00000816496580927726_0,
  116_00010523815106382575_116_00008799590021118496_018_00034717029341783334_117_00040998510708600777_017_00018929799756756668_016_00029950108064592316_115_00001224744871391589_0,
  116_00010523815106382575_116_00009473598877173782_014_00000403415629379957_115_00002436381373002645_016_00002678514034799107_116_00003338886116348349_015_00000816496580927726_0,
  116_00011523735778935282_116_00010147607733229451_017_00011280928834095907_117_00048020675986529676_016_00002992727658448483_116_00003338886116348349_115_00001224744871391589_0,
  116_00012023696115211493_116_00010821616589285121_017_00048653652783701445_116_00007610933709824549_016_00003464048093922547_116_00003338886116348349_015_00000816496580927726_0,
  116_00012023696115211493_115_00001149562544534041_116_00006402232091510928_016_00013957145358100058_016_00003778261717571923_116_00003338886116348349_015_00000816496580927726_0,
  116_00012023696115211493_115_00001149562544534041_016_00006092529348357192_116_00010921383055133904_016_00004092475341221299_116_00003338886116348349_115_00001224744871391589_0,
  116_00012023696115211493_115_00001149562544534041_117_00008799937765692141_117_00004884517850680491_016_00004563795776695363_116_00003338886116348349_015_00000816496580927726_0,
  116_00012023696115211493_115_00001149562544534041_117_00020513776615568505_016_00003223264147551537_017_00048780094003447394_116_00003338886116348349_015_00000816496580927726_0,
  115_00001252365645148799_115_00001216963430139608_116_00002776520066549197_017_00007153479768626296_016_00005192223023994115_116_00003338886116348349_015_00000816496580927726_0,
  116_00013023616787764485_116_00012843643157451365_016_00004530684168373677_116_00008814733471755224_016_00005506436647643491_116_00003338886116348349_115_00001224744871391589_0,
  115_00001252365645148799_116_00012843643157451365_014_00000051442662033672_116_00009416633352720559_016_00005977757083117555_116_00003338886116348349_015_00000816496580927726_0,
  115_00001252365645148799_116_00013517652013507035_116_00006123331166513871_016_00005831496965067996_016_00006291970706766932_116_00003338886116348349_115_00001224744871391589_0,
  115_00001252365645148799_116_00012843643157451365_115_00001142244874145794_015_00003211445843388775_016_00006763291142240996_116_00003338886116348349_115_00001224744871391589_1,
  116_00013023616787764485_116_00013517652013507035_116_00006458012276510339_116_00001993201487481394_015_00000723461157771506_116_00003338886116348349_015_00000816496580927726_0,
  116_00013023616787764485_116_00014191660869562706_115_00000829875838149091_016_00007737513254791571_016_00007548825201364435_116_00003338886116348349_015_00000816496580927726_0,
  116_00013023616787764485_116_00014191660869562706_116_00011199328001460296_016_00008540046429412019_016_00007863038825013812_116_00003338886116348349_115_00001224744871391589_0,
  116_00013523577124040698_116_00014191660869562706_117_00043383652465327116_117_00024947847216191754_016_00008334359260487876_016_00029950108064592316_115_00001224744871391589_0,
  116_00013023616787764485_116_00014191660869562706_017_00049211454633695556_115_00000570491742010098_016_00009119893319611315_116_00003338886116348349_115_00001224744871391589_0,
  116_00013523577124040698_116_00014865669725617991_116_00008577659306487967_016_00004427063909482209_016_00009591213755085379_116_00003338886116348349_015_00000816496580927726_0,
  116_00013523577124040698_116_00014865669725617991_118_00004329100157804543_016_00008038463195274238_016_00009905427378734756_116_00003338886116348349_115_00001224744871391589_0,
  116_00013023616787764485_116_00014191660869562706_017_00010165325134107683_117_00045011176581703016_015_00001037674781420882_116_00003338886116348349_015_00000816496580927726_0,
  116_00013023616787764485_116_00014191660869562706_017_00037497615783819194_116_00006607767241548985_016_00010690961437858195_116_00003338886116348349_015_00000816496580927726_0,
  115_00001252365645148799_116_00013517652013507035_115_00000606755098151446_017_00045273805563097663_016_00011005175061507573_116_00003338886116348349_115_00001224744871391589_0,
  116_00013023616787764485_116_00013517652013507035_017_00034708606533848635_116_00005403967479618307_016_00011476495496981636_116_00003338886116348349_115_00001224744871391589_0,
  116_00013023616787764485_116_00013517652013507035_116_00010195284671470892_016_00011950812421548933_014_00000119478159324557_116_00003338886116348349_015_00000816496580927726_0,
  115_00001252365645148799_115_00001216963430139608_016_00004753804908371322_116_00009115683412237894_016_00012262029556105076_116_00003338886116348349_115_00001224744871391589_0,
  115_00001252365645148799_115_00001216963430139608_116_00011812910036453819_016_00016565378175616523_015_00001273334999157914_116_00003338886116348349_015_00000816496580927726_0,
  116_00012023696115211493_115_00001149562544534041_116_00007183154681502685_016_00007035296726998674_016_00013047563615228517_116_00003338886116348349_015_00000816496580927726_0,
  116_00012023696115211493_115_00001149562544534041_115_00000339010210154272_017_00023204143261035248_016_00013361777238877892_116_00003338886116348349_015_00000816496580927726_0,
  116_00012023696115211493_116_00010821616589285121_117_00043941454315321227_017_00003140813895523986_016_00013675990862527267_116_00003338886116348349_015_00000816496580927726_0]

/-- lr/data.csv 8602-8701 -/
def dataCsv86 : List ℕ := [
  115_00001252365645148799_115_00001149562544534041_116_00005788650056517404_017_00003140813895523986_016_00013990204486176645_116_00003338886116348349_015_00000816496580927726_0,
  116_00013023616787764485_115_00001216963430139608_116_00010027944116472658_016_00006934980080171117_015_00001430441810982602_016_00029950108064592316_115_00001224744871391589_0,
  116_00013023616787764485_116_00012843643157451365_016_00010610724333309502_116_00008313150237617443_015_00001508995216894946_116_00003338886116348349_015_00000816496580927726_0,
  116_00013523577124040698_116_00013517652013507035_116_00008633439491487378_016_00009141946310377358_016_00015404165792598836_016_00029950108064592316_115_00001224744871391589_0,
  116_00013023616787764485_115_00001216963430139608_116_00013486315586436157_016_00012151445715204048_016_00016189699851722277_116_00003338886116348349_015_00000816496580927726_0,
  115_00001252365645148799_116_00010821616589285121_016_00005255826573366024_116_00006708083888376544_016_00016503913475371652_116_00003338886116348349_015_00000816496580927726_0,
  115_00001252365645148799_116_00010821616589285121_117_00018840371065586167_117_00027957346621018414_016_00016818127099021027_116_00003338886116348349_115_00001224744871391589_0,
  115_00001252365645148799_116_00010821616589285121_116_00005900210426516227_016_00010044796131825364_016_00017289447534495093_116_00003338886116348349_015_00000816496580927726_0,
  116_00013023616787764485_116_00010821616589285121_116_00009470142266478546_016_00010646696012790704_016_00017603661158144468_116_00003338886116348349_015_00000816496580927726_1,
  116_00013023616787764485_115_00001149562544534041_116_00003557442656540954_017_00005147146832075141_016_00017917874781793846_116_00003338886116348349_015_00000816496580927726_1,
  116_00013023616787764485_115_00001149562544534041_017_00012396532534084133_117_00016922515469987276_116_00016959837443286896_116_00003338886116348349_015_00000816496580927726_0,
  116_00013023616787764485_115_00001149562544534041_117_00037247832115391877_016_00005530547024585329_116_00016645623819637518_116_00003338886116348349_015_00000816496580927726_0,
  115_00001252365645148799_116_00010821616589285121_116_00005453968946520936_017_00045273805563097663_116_00016331410195988143_116_00003338886116348349_015_00000816496580927726_0,
  115_00001252365645148799_116_00010147607733229451_116_00007685176346497387_016_00010546379365963146_116_00016017196572338768_116_00003338886116348349_115_00001224744871391589_0,
  115_00001252365645148799_116_00010147607733229451_016_00008491077303331875_116_00006908717182031652_116_00015545876136864702_116_00003338886116348349_015_00000816496580927726_0,
  116_00012023696115211493_116_00009473598877173782_114_00000087449998614862_016_00007135613373826232_116_00015231662513215327_116_00003338886116348349_015_00000816496580927726_0,
  116_00012023696115211493_116_00009473598877173782_116_00010251064856470304_016_00006433396846033335_115_00001491744888956595_116_00003338886116348349_015_00000816496580927726_0,
  116_00012023696115211493_116_00009473598877173782_117_00005453126665727467_016_00005329913730930215_116_00014603235265916574_116_00003338886116348349_015_00000816496580927726_0,
  116_00011523735778935282_116_00008799590021118496_015_00001618874283325063_116_00015134682221891271_114_00000142890216422672_116_00003338886116348349_015_00000816496580927726_0,
  116_00012023696115211493_116_00009473598877173782_116_00003278541731543898_118_00018750184458538297_116_00013974808018617824_016_00029950108064592316_115_00001224744871391589_0,
  116_00012023696115211493_116_00010147607733229451_116_00003557442656540954_017_00024207309729310825_116_00013189273959494383_116_00003338886116348349_015_00000816496580927726_0,
  116_00012023696115211493_116_00010147607733229451_116_00006011770796515049_015_00001265302894934183_116_00012875060335845006_116_00003338886116348349_115_00001224744871391589_0,
  115_00001252365645148799_115_00001149562544534041_116_00005677089686518582_017_00023204143261035248_116_00012403739900370943_116_00003338886116348349_015_00000816496580927726_0,
  115_00001252365645148799_115_00001149562544534041_116_00003501662471541543_016_00005630863671412888_116_00012089526276721567_116_00003338886116348349_115_00001224744871391589_0,
  115_00001252365645148799_116_00010821616589285121_116_00002720739881549785_118_00028781849141293357_116_00011618205841247502_016_00029950108064592316_115_00001224744871391589_0,
  116_00013023616787764485_115_00001149562544534041_016_00005200046388366611_116_00006507450594721428_116_00010832671782124061_116_00003338886116348349_015_00000816496580927726_0,
  116_00013023616787764485_115_00001216963430139608_116_00007629396161497976_016_00009743846191342698_116_00010518458158474686_116_00003338886116348349_015_00000816496580927726_0,
  116_00013023616787764485_115_00001149562544534041_116_00010697306336465593_016_00005831496965067996_115_00001020424453482531_116_00003338886116348349_015_00000816496580927726_0,
  115_00001252365645148799_116_00010821616589285121_016_00011614767663298906_116_00009015366765410335_116_00009890030911175934_116_00003338886116348349_015_00000816496580927726_0,
  115_00001252365645148799_116_00010147607733229451_017_00010165325134107683_117_00008897183723782728_116_00009575817287526558_016_00029950108064592316_115_00001224744871391589_0,
  116_00013023616787764485_116_00010821616589285121_116_00009358581896479724_015_00001746822799706453_116_00008790283228403118_116_00003338886116348349_015_00000816496580927726_0,
  116_00013523577124040698_115_00001149562544534041_117_00018282569215592054_117_00029963679557569567_116_00008476069604753742_016_00029950108064592316_115_00001224744871391589_0,
  116_00013523577124040698_115_00001149562544534041_017_00028572786183913396_117_00045011176581703016_116_00007690535545630302_116_00003338886116348349_015_00000816496580927726_0,
  116_00013023616787764485_115_00001149562544534041_116_00011310888371459118_015_00001375651206444495_116_00007376321921980926_116_00003338886116348349_015_00000816496580927726_0,
  116_00013523577124040698_115_00001149562544534041_116_00007127374496503274_016_00003223264147551537_115_00000706210829833155_116_00003338886116348349_015_00000816496580927726_0,
  116_00013023616787764485_115_00001149562544534041_016_00009216219708324221_115_00001272708269802992_116_00006747894674682174_116_00003338886116348349_015_00000816496580927726_0,
  115_00001252365645148799_116_00010821616589285121_016_00010276043223313036_115_00001272708269802992_116_00006433681051032798_116_00003338886116348349_015_00000816496580927726_0,
  115_00001252365645148799_116_00010147607733229451_117_00044499256165315343_118_00028781849141293357_116_00006119467427383422_116_00003338886116348349_015_00000816496580927726_0,
  116_00012023696115211493_116_00010147607733229451_016_00001853235288401937_117_00040998510708600777_116_00005805253803734046_116_00003338886116348349_015_00000816496580927726_0,
  115_00001252365645148799_116_00010821616589285121_116_00008633439491487378_016_00016063794941478742_115_00000549104018008467_116_00003338886116348349_015_00000816496580927726_0,
  116_00012023696115211493_116_00009473598877173782_116_00008689219676486789_016_00007536879961136456_116_00005176826556435293_116_00003338886116348349_015_00000816496580927726_0,
  116_00012023696115211493_116_00010147607733229451_116_00009972163931473248_016_00008640363076239577_117_00048626129327859174_116_00003338886116348349_115_00001224744871391589_0,
  115_00001252365645148799_116_00010821616589285121_016_00003191959728387807_117_00033976345430671806_116_00004391292497311854_116_00003338886116348349_115_00001224744871391589_0,
  115_00001252365645148799_116_00010147607733229451_116_00005063507651525058_016_00014358411945410283_115_00000391997206183779_116_00003338886116348349_015_00000816496580927726_0,
  116_00012023696115211493_116_00010147607733229451_116_00005342408576522114_117_00017925681938262783_117_00036057584381884134_116_00003338886116348349_115_00001224744871391589_0,
  116_00012023696115211493_116_00009473598877173782_116_00002609179511550963_117_00045011176581703016_115_00000313443800271435_116_00003338886116348349_115_00001224744871391589_0,
  115_00001252365645148799_116_00009473598877173782_117_00023302785865539066_016_00003925480675344427_117_00026631175672402857_116_00003338886116348349_015_00000816496580927726_0,
  115_00001252365645148799_116_00010147607733229451_117_00004895324815733354_117_00014916182533436123_117_00023489039435909095_116_00003338886116348349_015_00000816496580927726_0,
  116_00013023616787764485_116_00010821616589285121_115_00000339010210154272_016_00006232763552378227_117_00020346903199415334_116_00003338886116348349_115_00001224744871391589_0,
  116_00013023616787764485_116_00010821616589285121_116_00011757129851454409_016_00021882160457477005_117_00015633698844674693_116_00003338886116348349_015_00000816496580927726_0,
  116_00013023616787764485_115_00001149562544534041_016_00012953492103284776_116_00012626766051202365_117_00012491562608180934_016_00029950108064592316_115_00001224744871391589_0,
  116_00013023616787764485_116_00010821616589285121_017_00014069938084066472_116_00005002700892308083_118_00046362220169465326_116_00003338886116348349_115_00001224744871391589_0,
  116_00013523577124040698_115_00001149562544534041_117_00043383652465327116_017_00015178811514830773_019_00007698233779410749_016_00029950108064592316_115_00001224744871391589_0,
  116_00013023616787764485_115_00001149562544534041_116_00011366668556458528_015_00001796981123120231_017_00007932322929028508_116_00003338886116348349_115_00001224744871391589_0,
  116_00013023616787764485_116_00010821616589285121_116_00005453968946520936_016_00006834663433343559_017_00012645527283769148_116_00003338886116348349_115_00001224744871391589_0,
  116_00013523577124040698_115_00001149562544534041_116_00015103940951419084_016_00020678360695546334_016_00001735873163850979_116_00003338886116348349_015_00000816496580927726_0,
  116_00013523577124040698_115_00001149562544534041_016_00008825758413328343_116_00012626766051202365_016_00002050086787500355_116_00003338886116348349_115_00001224744871391589_0,
  116_00013023616787764485_116_00010821616589285121_116_00006569572646509162_016_00006032130258723112_016_00002521407222974419_116_00003338886116348349_015_00000816496580927726_0,
  116_00013023616787764485_116_00010147607733229451_116_00002386058771553318_117_00035982678367222964_016_00002835620846623795_116_00003338886116348349_015_00000816496580927726_0,
  115_00001252365645148799_116_00010147607733229451_116_00009135461156482079_015_00001566252835416852_016_00003149834470273171_116_00003338886116348349_015_00000816496580927726_0,
  116_00013023616787764485_116_00010147607733229451_115_00001359787595643498_016_00012151445715204048_016_00003464048093922547_116_00003338886116348349_015_00000816496580927726_0,
  116_00013023616787764485_116_00010147607733229451_016_00005813628423360135_116_00006206500654238761_016_00003778261717571923_116_00003338886116348349_015_00000816496580927726_0,
  115_00001252365645148799_116_00009473598877173782_117_00013820154415639155_117_00030966846025845146_016_00004092475341221299_116_00003338886116348349_015_00000816496580927726_0,
  115_00001252365645148799_116_00009473598877173782_016_00007375473603343651_116_00010620433114651238_017_00044066889648706753_116_00003338886116348349_015_00000816496580927726_0,
  115_00001252365645148799_116_00009473598877173782_116_00010251064856470304_016_00018972977699477873_016_00004720902588520051_016_00029950108064592316_115_00001224744871391589_0,
  116_00012023696115211493_116_00008799590021118496_116_00009693263006476192_016_00010646696012790704_016_00005506436647643491_116_00003338886116348349_015_00000816496580927726_0,
  115_00001252365645148799_116_00008799590021118496_116_00007350495236500919_015_00000252104761975864_016_00005820650271292868_116_00003338886116348349_015_00000816496580927726_0,
  115_00001252365645148799_116_00008125581165062826_116_00004673046356529179_016_00006132446905550669_016_00006134863894942243_116_00003338886116348349_115_00001224744871391589_0,
  115_00001252365645148799_116_00008125581165062826_117_00020513776615568505_016_00005931813611895553_016_00006606184330416307_116_00003338886116348349_015_00000816496580927726_0,
  115_00001252365645148799_116_00008125581165062826_117_00037805633965385993_016_00012352079008859156_016_00006920397954065683_116_00003338886116348349_115_00001224744871391589_0,
  115_00001252365645148799_116_00007451572309007539_017_00023552569533966383_116_00009617266646375675_016_00007391718389539748_116_00003338886116348349_015_00000816496580927726_0,
  115_00001252365645148799_116_00008125581165062826_117_00004895324815733354_117_00021938347811365091_016_00007705932013189124_116_00003338886116348349_015_00000816496580927726_0,
  115_00001252365645148799_116_00008125581165062826_116_00012649612811444988_015_00001034574607230803_016_00008020145636838499_116_00003338886116348349_015_00000816496580927726_0,
  116_00013023616787764485_116_00009473598877173782_117_00024976191415521404_016_00002621364266586198_016_00008334359260487876_116_00003338886116348349_015_00000816496580927726_0,
  116_00013023616787764485_116_00009473598877173782_118_00060109285157215794_116_00010921383055133904_016_00008648572884137251_116_00003338886116348349_115_00001224744871391589_0,
  116_00013523577124040698_116_00009473598877173782_016_00008323736748333642_116_00010620433114651238_016_00009119893319611315_016_00029950108064592316_115_00001224744871391589_0,
  116_00013523577124040698_116_00010147607733229451_117_00010473343315674478_017_00024207309729310825_016_00009905427378734756_116_00003338886116348349_115_00001224744871391589_0,
  116_00013523577124040698_116_00010147607733229451_016_00006985012308347772_115_00001112201634878902_015_00001037674781420882_116_00003338886116348349_115_00001224744871391589_0,
  116_00013523577124040698_116_00010147607733229451_117_00013820154415639155_017_00045273805563097663_016_00010848068249682883_116_00003338886116348349_015_00000816496580927726_0,
  116_00013523577124040698_116_00010147607733229451_116_00004617266171529768_016_00014258095298582731_015_00001116228187333226_116_00003338886116348349_015_00000816496580927726_0,
  116_00014023537460317193_116_00010147607733229451_117_00024976191415521404_117_00003881351382404913_016_00011476495496981636_116_00003338886116348349_015_00000816496580927726_0,
  116_00014023537460317193_116_00010821616589285121_017_00036939813933825083_116_00010018533233685898_015_00001179070912063101_116_00003338886116348349_015_00000816496580927726_0,
  116_00014023537460317193_116_00010147607733229451_116_00010362625226469127_016_00006533713492860893_016_00012104922744280389_116_00003338886116348349_115_00001224744871391589_0,
  116_00014023537460317193_116_00010147607733229451_116_00005119287836524469_015_00000793814654844668_016_00012576243179754452_116_00003338886116348349_015_00000816496580927726_0,
  116_00014023537460317193_116_00010147607733229451_016_00002745718248392517_017_00004143980363799563_016_00012890456803403827_116_00003338886116348349_015_00000816496580927726_0,
  116_00014023537460317193_116_00010147607733229451_117_00008242135915698029_017_00014175645046555194_016_00013204670427053204_016_00029950108064592316_115_00001224744871391589_0,
  116_00014023537460317193_116_00010147607733229451_016_00004028662503378976_116_00008413466884444997_016_00013990204486176645_116_00003338886116348349_115_00001224744871391589_0,
  116_00014023537460317193_116_00010147607733229451_016_00003638201208383097_116_00005103017539135641_016_00014461524921650708_116_00003338886116348349_115_00001224744871391589_0,
  116_00014523497796593405_116_00010147607733229451_117_00031112011765456643_016_00006934980080171117_016_00014932845357124773_116_00003338886116348349_015_00000816496580927726_0,
  116_00014523497796593405_116_00010821616589285121_018_00023560992341901083_117_00003881351382404913_016_00015247058980774149_116_00003338886116348349_015_00000816496580927726_0,
  116_00014523497796593405_116_00010147607733229451_116_00012036030776451463_016_00004427063909482209_016_00015561272604423524_116_00003338886116348349_015_00000816496580927726_1,
  116_00014523497796593405_116_00010147607733229451_017_00009049721434119458_117_00037989011303774045_116_00016959837443286896_116_00003338886116348349_015_00000816496580927726_0,
  116_00014523497796593405_116_00010821616589285121_017_00024668173233954607_115_00000811251694396233_116_00016645623819637518_116_00003338886116348349_015_00000816496580927726_0,
  116_00014023537460317193_116_00010147607733229451_016_00002522597508394872_019_00013131449069732513_116_00016331410195988143_116_00003338886116348349_115_00001224744871391589_0,
  116_00014023537460317193_116_00010147607733229451_015_00001267459117828772_116_00014231832400443263_116_00015860089760514078_116_00003338886116348349_015_00000816496580927726_0,
  116_00014023537460317193_116_00009473598877173782_117_00022744984015544953_016_00004427063909482209_116_00015545876136864702_116_00003338886116348349_115_00001224744871391589_0,
  116_00014023537460317193_116_00009473598877173782_116_00007015814126504452_016_00009844162838170248_115_00001507455570139064_116_00003338886116348349_015_00000816496580927726_0,
  116_00013523577124040698_116_00009473598877173782_117_00018840371065586167_116_00006507450594721428_116_00014760342077741262_116_00003338886116348349_015_00000816496580927726_0,
  116_00013523577124040698_116_00008799590021118496_115_00000562130950151917_016_00006232763552378227_116_00014446128454091887_016_00029950108064592316_115_00001224744871391589_0,
  116_00013523577124040698_116_00008799590021118496_015_00000648299064335307_116_00005905550713756088_116_00013660594394968446_116_00003338886116348349_115_00001224744871391589_0]

/-- lr/data.csv 8702-8801 -/
def dataCsv87 : List ℕ := [
  116_00013523577124040698_116_00008799590021118496_116_00004896167096526824_015_00000382516402851687_116_00013189273959494383_116_00003338886116348349_115_00001224744871391589_0,
  116_00013523577124040698_116_00008799590021118496_116_00004059464321535655_115_00000159193490017117_116_00012717953524020318_116_00003338886116348349_115_00001224744871391589_0,
  116_00014023537460317193_116_00009473598877173782_015_00001312083265828301_115_00001704069851161484_116_00012246633088546255_116_00003338886116348349_015_00000816496580927726_0,
  116_00014023537460317193_116_00009473598877173782_116_00014211457991428502_016_00011348912540583593_116_00011932419464896877_116_00003338886116348349_115_00001224744871391589_0,
  116_00014523497796593405_116_00010147607733229451_116_00006346451906511517_019_00013131449069732513_116_00011461099029422814_116_00003338886116348349_015_00000816496580927726_0,
  116_00014023537460317193_116_00009473598877173782_116_00005677089686518582_016_00012452395655686714_115_00001114688540577344_116_00003338886116348349_015_00000816496580927726_0,
  116_00014023537460317193_116_00009473598877173782_116_00011366668556458528_016_00013054295536652054_116_00010832671782124061_116_00003338886116348349_015_00000816496580927726_0,
  116_00014023537460317193_116_00010147607733229451_117_00037805633965385993_017_00017185144451381926_116_00010518458158474686_116_00003338886116348349_015_00000816496580927726_0,
  116_00014023537460317193_116_00010147607733229451_116_00009749043191475603_016_00014057462004927617_115_00001020424453482531_116_00003338886116348349_115_00001224744871391589_0,
  116_00014523497796593405_116_00010147607733229451_017_00021879163983984046_117_00044008010113427437_116_00009732924099351247_116_00003338886116348349_015_00000816496580927726_0,
  116_00014523497796593405_116_00010147607733229451_016_00009662461188319512_116_00007911883650307214_115_00000941871047570187_116_00003338886116348349_015_00000816496580927726_0,
  116_00014523497796593405_116_00010147607733229451_015_00001083384507330715_116_00011322649642444131_116_00009104496852052494_116_00003338886116348349_015_00000816496580927726_0,
  116_00014023537460317193_116_00009473598877173782_016_00006315650088354837_116_00007911883650307214_116_00008790283228403118_116_00003338886116348349_015_00000816496580927726_0,
  116_00014023537460317193_116_00009473598877173782_016_00021097399113198816_115_00001593721539651172_116_00008476069604753742_116_00003338886116348349_015_00000816496580927726_0,
  116_00014023537460317193_116_00009473598877173782_116_00005286628391522703_017_00011166145641728534_116_00008161855981104366_116_00003338886116348349_115_00001224744871391589_0,
  116_00014523497796593405_116_00009473598877173782_116_00005398188761521525_117_00028960513089293993_116_00007690535545630302_116_00003338886116348349_015_00000816496580927726_0,
  116_00014523497796593405_116_00009473598877173782_016_00009941362113316569_116_00008714416824927665_116_00007376321921980926_116_00003338886116348349_115_00001224744871391589_0,
  116_00014523497796593405_116_00008799590021118496_117_00036132228415403655_017_00023204143261035248_116_00006905001486506862_116_00003338886116348349_015_00000816496580927726_0,
  116_00014023537460317193_116_00008799590021118496_117_00016609163665609716_117_00006890850787231645_116_00006590787862857486_116_00003338886116348349_015_00000816496580927726_0,
  116_00014023537460317193_116_00008125581165062826_116_00004896167096526824_015_00000312294750072398_115_00000627657423920811_116_00003338886116348349_015_00000816496580927726_0,
  116_00013523577124040698_116_00008125581165062826_017_00008491919584125346_117_00038992177772049624_116_00005962360615558734_116_00003338886116348349_015_00000816496580927726_0,
  116_00014023537460317193_116_00008799590021118496_016_00007263913233344829_116_00009316316705893005_116_00005648146991909357_116_00003338886116348349_015_00000816496580927726_0,
  116_00014023537460317193_116_00009473598877173782_115_00000963748282147678_016_00010446062719135587_116_00005333933368259982_116_00003338886116348349_015_00000816496580927726_0,
  116_00014023537460317193_116_00009473598877173782_017_00021879163983984046_116_00005604600773273423_116_00005019719744610606_116_00003338886116348349_015_00000816496580927726_0,
  116_00014023537460317193_116_00009473598877173782_117_00014377956265633265_117_00009900350192058306_115_00000470550612096123_116_00003338886116348349_115_00001224744871391589_0,
  116_00014523497796593405_116_00010147607733229451_117_00013262352565645041_017_00021197810324484165_117_00042341856854871657_116_00003338886116348349_115_00001224744871391589_0,
  116_00014023537460317193_116_00009473598877173782_017_00012954334384078245_116_00007009033828859209_117_00037628652500131016_116_00003338886116348349_015_00000816496580927726_0,
  116_00014023537460317193_116_00008799590021118496_117_00021071578465562615_117_00014916182533436123_117_00034486516263637257_116_00003338886116348349_015_00000816496580927726_0,
  116_00014023537460317193_116_00008799590021118496_115_00000785251690149562_116_00001892884840653836_115_00000313443800271435_116_00003338886116348349_115_00001224744871391589_0,
  116_00013523577124040698_116_00008799590021118496_116_00010418405411468539_016_00013856828711272502_117_00026631175672402857_116_00003338886116348349_015_00000816496580927726_0,
  116_00013523577124040698_116_00008799590021118496_017_00016858947334037033_116_00006106184007411204_117_00023489039435909095_016_00029950108064592316_115_00001224744871391589_0,
  116_00014023537460317193_116_00009473598877173782_117_00029438606215474306_015_00000663403013968845_117_00015633698844674693_016_00029950108064592316_115_00001224744871391589_0,
  116_00014023537460317193_116_00009473598877173782_016_00018141049308230022_114_00000164387986306495_117_00007778358253440293_116_00003338886116348349_015_00000816496580927726_0,
  116_00013523577124040698_116_00008799590021118496_116_00005119287836524469_017_00045273805563097663_118_00046362220169465326_116_00003338886116348349_115_00001224744871391589_0,
  116_00014023537460317193_116_00009473598877173782_116_00008187198011492087_017_00015178811514830773_019_00007698233779410749_116_00003338886116348349_015_00000816496580927726_0,
  116_00013523577124040698_116_00009473598877173782_115_00001008372430147207_016_00007637196607964014_017_00003219118574287868_116_00003338886116348349_015_00000816496580927726_0,
  116_00013523577124040698_116_00008799590021118496_116_00002664959696550374_018_00021376474272484798_017_00006361254810781627_116_00003338886116348349_015_00000816496580927726_0,
  116_00013523577124040698_116_00008799590021118496_016_00000960752328411357_117_00032973178962396227_017_00009503391047275388_116_00003338886116348349_015_00000816496580927726_0,
  116_00013523577124040698_116_00008799590021118496_117_00004337522965739242_117_00032973178962396227_017_00012645527283769148_116_00003338886116348349_015_00000816496580927726_0,
  116_00013023616787764485_116_00008799590021118496_116_00006123331166513871_117_00023944680747916175_016_00001578766352026291_016_00029950108064592316_115_00001224744871391589_0,
  116_00013023616787764485_116_00008125581165062826_017_00019090154734013484_116_00006106184007411204_016_00002364300411149731_116_00003338886116348349_115_00001224744871391589_0,
  116_00013023616787764485_116_00008125581165062826_118_00004329100157804543_017_00012169312110004112_016_00002835620846623795_116_00003338886116348349_015_00000816496580927726_0,
  116_00013023616787764485_116_00008125581165062826_116_00004003684136536244_117_00009900350192058306_016_00003149834470273171_116_00003338886116348349_015_00000816496580927726_0,
  116_00013023616787764485_116_00008799590021118496_116_00012036030776451463_016_00011148279246928485_016_00003464048093922547_016_00029950108064592316_115_00001224744871391589_0,
  116_00013023616787764485_116_00008799590021118496_015_00001445955709826888_115_00001704069851161484_016_00004249582153045987_116_00003338886116348349_115_00001224744871391589_0,
  116_00013023616787764485_116_00009473598877173782_116_00007127374496503274_016_00006333080199205777_016_00004720902588520051_116_00003338886116348349_015_00000816496580927726_0,
  116_00013523577124040698_116_00010147607733229451_118_00060109285157215794_017_00045273805563097663_016_00005035116212169427_116_00003338886116348349_015_00000816496580927726_0,
  116_00013523577124040698_116_00010147607733229451_117_00019398172915580278_017_00020194643856208588_016_00005349329835818804_116_00003338886116348349_015_00000816496580927726_0,
  116_00013523577124040698_116_00010147607733229451_116_00008633439491487378_117_00003881351382404913_016_00005663543459468179_116_00003338886116348349_015_00000816496580927726_0,
  116_00014023537460317193_116_00010821616589285121_016_00007710154713340118_116_00013629932519477927_016_00005977757083117555_116_00003338886116348349_015_00000816496580927726_0,
  116_00013523577124040698_116_00010147607733229451_016_00012563030808288898_116_00009216000059065448_016_00006291970706766932_116_00003338886116348349_015_00000816496580927726_0,
  116_00013023616787764485_116_00010147607733229451_117_00037247832115391877_017_00020194643856208588_016_00006606184330416307_116_00003338886116348349_115_00001224744871391589_0,
  116_00013023616787764485_116_00010147607733229451_116_00004115244506535067_016_00015963478294651186_016_00007077504765890371_116_00003338886116348349_115_00001224744871391589_0,
  116_00013023616787764485_116_00009473598877173782_016_00006594551013351894_116_00006908717182031652_016_00007548825201364435_116_00003338886116348349_115_00001224744871391589_0,
  116_00013023616787764485_116_00009473598877173782_016_00005367386943364846_116_00009516949999548118_016_00008020145636838499_116_00003338886116348349_015_00000816496580927726_0,
  116_00013023616787764485_116_00008799590021118496_017_00024110371383960497_115_00000811251694396233_016_00008334359260487876_116_00003338886116348349_115_00001224744871391589_0,
  115_00001252365645148799_116_00008799590021118496_016_00012395690253290663_115_00001383056581313304_015_00000880567969596194_116_00003338886116348349_015_00000816496580927726_0,
  115_00001252365645148799_116_00008125581165062826_016_00002689938063393106_116_00005103017539135641_016_00009119893319611315_116_00003338886116348349_015_00000816496580927726_0,
  115_00001252365645148799_116_00008799590021118496_116_00005175068021523881_016_00013054295536652054_016_00009434106943260692_116_00003338886116348349_115_00001224744871391589_0,
  115_00001252365645148799_116_00008799590021118496_116_00010418405411468539_016_00013054295536652054_016_00009905427378734756_116_00003338886116348349_115_00001224744871391589_0,
  116_00013023616787764485_116_00008799590021118496_116_00008187198011492087_016_00006433396846033335_015_00001037674781420882_116_00003338886116348349_115_00001224744871391589_0,
  115_00001252365645148799_116_00008125581165062826_116_00006792693386506806_016_00009844162838170248_016_00010848068249682883_116_00003338886116348349_015_00000816496580927726_0,
  115_00001252365645148799_116_00008125581165062826_016_00015909841908253572_116_00016037532043339278_015_00001116228187333226_016_00029950108064592316_115_00001224744871391589_0,
  115_00001252365645148799_116_00008125581165062826_017_00035824210233836856_117_00032973178962396227_014_00000119478159324557_116_00003338886116348349_015_00000816496580927726_0,
  116_00013023616787764485_116_00008125581165062826_016_00004530684168373677_116_00006607767241548985_016_00012262029556105076_116_00003338886116348349_015_00000816496580927726_0,
  116_00013023616787764485_116_00008125581165062826_116_00010362625226469127_016_00009442896250860024_016_00012576243179754452_116_00003338886116348349_015_00000816496580927726_0,
  115_00001252365645148799_116_00008125581165062826_116_00009972163931473248_015_00001074701265961826_016_00012890456803403827_116_00003338886116348349_015_00000816496580927726_0,
  115_00001252365645148799_116_00009473598877173782_116_00008856560231485022_016_00013555878770789835_016_00013204670427053204_116_00003338886116348349_015_00000816496580927726_0,
  115_00001252365645148799_116_00008799590021118496_116_00009804823376475014_016_00013656195417617392_015_00001351888405070258_116_00003338886116348349_115_00001224744871391589_0,
  116_00013023616787764485_116_00009473598877173782_116_00004840386911527413_017_00012169312110004112_016_00013990204486176645_116_00003338886116348349_115_00001224744871391589_0,
  116_00013023616787764485_116_00009473598877173782_016_00007877495268338351_116_00007209667122514325_016_00014461524921650708_116_00003338886116348349_015_00000816496580927726_0,
  115_00001252365645148799_116_00009473598877173782_118_00015485137157686792_117_00009900350192058306_016_00014775738545300083_116_00003338886116348349_015_00000816496580927726_0,
  115_00001252365645148799_116_00009473598877173782_016_00004586464353373088_115_00001112201634878902_116_00016959837443286896_116_00003338886116348349_015_00000816496580927726_0,
  115_00001252365645148799_116_00009473598877173782_016_00002578377693394283_117_00023944680747916175_116_00016645623819637518_116_00003338886116348349_015_00000816496580927726_0,
  116_00012023696115211493_116_00008799590021118496_116_00007294715051501508_016_00011549545834238708_116_00016331410195988143_116_00003338886116348349_115_00001224744871391589_0,
  115_00001252365645148799_116_00009473598877173782_118_00015485137157686792_117_00012909849596884967_116_00015860089760514078_016_00029950108064592316_115_00001224744871391589_0,
  115_00001252365645148799_116_00009473598877173782_116_00010418405411468539_015_00001265302894934183_115_00001507455570139064_116_00003338886116348349_015_00000816496580927726_0,
  115_00001252365645148799_116_00009473598877173782_117_00032227615465444864_116_00001190668312860946_116_00014760342077741262_016_00029950108064592316_115_00001224744871391589_0,
  115_00001252365645148799_116_00008799590021118496_115_00000472882654152859_016_00005028963790447548_116_00013974808018617824_116_00003338886116348349_015_00000816496580927726_0,
  115_00001252365645148799_116_00009473598877173782_115_00001058574596646677_016_00011549545834238708_116_00013660594394968446_116_00003338886116348349_115_00001224744871391589_0,
  115_00001252365645148799_116_00009473598877173782_116_00011812910036453819_016_00012151445715204048_116_00013189273959494383_116_00003338886116348349_115_00001224744871391589_0,
  116_00012023696115211493_116_00008799590021118496_016_00000737631588413712_017_00023204143261035248_116_00012717953524020318_116_00003338886116348349_015_00000816496580927726_0,
  115_00001252365645148799_116_00008799590021118496_116_00004617266171529768_016_00004728013849964882_116_00012403739900370943_116_00003338886116348349_015_00000816496580927726_0,
  116_00012023696115211493_116_00009473598877173782_115_00001588486354141084_016_00005831496965067996_116_00012089526276721567_116_00003338886116348349_115_00001224744871391589_0,
  115_00001252365645148799_116_00009473598877173782_116_00005677089686518582_016_00003323580794379088_116_00011618205841247502_116_00003338886116348349_015_00000816496580927726_0,
  115_00001252365645148799_116_00009473598877173782_015_00000865841785833011_116_00012927715991685031_116_00011303992217598127_116_00003338886116348349_015_00000816496580927726_0,
  115_00001252365645148799_116_00010147607733229451_116_00012984293921441454_015_00001074701265961826_116_00010989778593948751_116_00003338886116348349_015_00000816496580927726_0,
  115_00001252365645148799_116_00010147607733229451_016_00008937318783327166_115_00000991821658685834_116_00010675564970299374_116_00003338886116348349_115_00001224744871391589_0,
  116_00013023616787764485_116_00010147607733229451_116_00009470142266478546_016_00013254928830307169_115_00001020424453482531_116_00003338886116348349_015_00000816496580927726_0,
  116_00013023616787764485_116_00010147607733229451_117_00037805633965385993_016_00003925480675344427_116_00009890030911175934_116_00003338886116348349_015_00000816496580927726_0,
  116_00013023616787764485_116_00010147607733229451_116_00007183154681502685_016_00003925480675344427_116_00009575817287526558_116_00003338886116348349_015_00000816496580927726_0,
  116_00013023616787764485_116_00010147607733229451_116_00007071594311503863_016_00005530547024585329_116_00009261603663877183_116_00003338886116348349_115_00001224744871391589_0,
  116_00013023616787764485_116_00010147607733229451_116_00006736913201507395_016_00011248595893756042_116_00008790283228403118_116_00003338886116348349_015_00000816496580927726_0,
  116_00013023616787764485_116_00010147607733229451_016_00013567074138278299_116_00014131515753615709_116_00008476069604753742_116_00003338886116348349_015_00000816496580927726_0,
  116_00013023616787764485_116_00010147607733229451_117_00023302785865539066_117_00035982678367222964_116_00008161855981104366_116_00003338886116348349_115_00001224744871391589_0,
  116_00013523577124040698_116_00010821616589285121_117_00044499256165315343_117_00005887684318956068_116_00007690535545630302_116_00003338886116348349_015_00000816496580927726_0,
  116_00014023537460317193_115_00001149562544534041_016_00014347996728270056_115_00001623816533699439_116_00007376321921980926_116_00003338886116348349_015_00000816496580927726_0,
  116_00014023537460317193_115_00001149562544534041_017_00016858947334037033_116_00008814733471755224_115_00000706210829833155_116_00003338886116348349_015_00000816496580927726_0,
  116_00013523577124040698_116_00010821616589285121_117_00038921237665374214_016_00006734346786516008_116_00006747894674682174_116_00003338886116348349_015_00000816496580927726_0,
  116_00013523577124040698_116_00010821616589285121_117_00037247832115391877_017_00013172478578279617_116_00006433681051032798_116_00003338886116348349_015_00000816496580927726_0]

/-- lr/data.csv 8802-8901 -/
def dataCsv88 : List ℕ := [
  116_00013023616787764485_116_00010147607733229451_116_00003557442656540954_015_00000723593002065379_116_00006119467427383422_116_00003338886116348349_015_00000816496580927726_0,
  116_00013023616787764485_116_00009473598877173782_116_00002832300251548608_117_00035982678367222964_116_00005805253803734046_116_00003338886116348349_015_00000816496580927726_0,
  116_00013023616787764485_116_00009473598877173782_117_00008242135915698029_015_00000312294750072398_115_00000549104018008467_116_00003338886116348349_015_00000816496580927726_0,
  116_00013023616787764485_116_00010147607733229451_117_00029438606215474306_016_00008640363076239577_116_00005176826556435293_116_00003338886116348349_015_00000816496580927726_0,
  115_00001252365645148799_116_00009473598877173782_116_00015829083356411429_015_00002077867734237389_117_00048626129327859174_116_00003338886116348349_115_00001224744871391589_0,
  116_00013023616787764485_116_00009473598877173782_117_00038921237665374214_016_00002621364266586198_116_00004391292497311854_116_00003338886116348349_115_00001224744871391589_0,
  116_00013023616787764485_116_00010147607733229451_016_00008546857488331286_115_00000570491742010098_115_00000391997206183779_116_00003338886116348349_015_00000816496580927726_0,
  116_00013023616787764485_116_00009473598877173782_016_00003638201208383097_116_00007209667122514325_117_00036057584381884134_116_00003338886116348349_115_00001224744871391589_0,
  116_00013023616787764485_116_00009473598877173782_116_00005175068021523881_016_00008138779842101795_115_00000313443800271435_116_00003338886116348349_015_00000816496580927726_0,
  116_00013523577124040698_116_00010147607733229451_116_00001995597476557439_016_00003323580794379088_117_00028202243790649734_116_00003338886116348349_015_00000816496580927726_0,
  116_00013523577124040698_116_00010147607733229451_017_00048095850933707335_116_00007209667122514325_117_00025060107554155975_116_00003338886116348349_115_00001224744871391589_0,
  116_00014023537460317193_116_00010147607733229451_017_00019647956584007595_117_00042001677176876356_117_00020346903199415334_116_00003338886116348349_015_00000816496580927726_0,
  116_00014023537460317193_116_00010821616589285121_116_00008968120601483845_016_00001919147738793301_117_00017204766962921575_116_00003338886116348349_115_00001224744871391589_0,
  116_00014523497796593405_116_00010821616589285121_016_00008602637673330699_116_00010520116467823681_117_00012491562608180934_116_00003338886116348349_015_00000816496580927726_0,
  116_00014023537460317193_116_00010821616589285121_117_00042825850615333005_016_00011248595893756042_117_00009349426371687174_116_00003338886116348349_015_00000816496580927726_0,
  116_00013523577124040698_116_00010147607733229451_116_00005788650056517404_015_00001506062847320318_118_00062072901351934134_016_00029950108064592316_115_00001224744871391589_0,
  116_00014023537460317193_116_00010147607733229451_116_00006346451906511517_016_00005831496965067996_018_00016480504560409875_116_00003338886116348349_115_00001224744871391589_0,
  116_00013523577124040698_116_00009473598877173782_116_00009079680971482668_016_00013555878770789835_017_00006361254810781627_016_00029950108064592316_115_00001224744871391589_0,
  116_00013023616787764485_116_00008799590021118496_117_00032227615465444864_016_00008038463195274238_016_00001421659540201603_116_00003338886116348349_115_00001224744871391589_0,
  116_00013023616787764485_116_00008799590021118496_115_00001058574596646677_016_00008941313016722243_017_00018929799756756668_016_00029950108064592316_115_00001224744871391589_0,
  116_00013523577124040698_116_00008799590021118496_017_00006818514034143008_019_00013131449069732513_016_00002678514034799107_116_00003338886116348349_015_00000816496580927726_0,
  116_00013023616787764485_116_00008799590021118496_016_00004698024723371911_116_00006206500654238761_016_00002992727658448483_016_00029950108064592316_115_00001224744871391589_0,
  116_00013023616787764485_116_00008125581165062826_117_00042825850615333005_016_00009743846191342698_016_00003778261717571923_116_00003338886116348349_015_00000816496580927726_0,
  116_00013523577124040698_116_00008125581165062826_116_00005119287836524469_015_00001746822799706453_016_00004092475341221299_116_00003338886116348349_115_00001224744871391589_0,
  116_00013523577124040698_116_00007451572309007539_015_00001451533728326829_116_00015535948809201496_016_00004563795776695363_116_00003338886116348349_115_00001224744871391589_0,
  116_00013523577124040698_116_00008125581165062826_017_00005145108484160671_017_00013172478578279617_016_00005035116212169427_116_00003338886116348349_115_00001224744871391589_0,
  116_00014023537460317193_116_00008125581165062826_117_00029996408065468416_015_00000793814654844668_016_00005506436647643491_116_00003338886116348349_115_00001224744871391589_0,
  116_00014023537460317193_116_00008799590021118496_116_00004226804876533889_016_00009944479484997806_016_00005977757083117555_116_00003338886116348349_015_00000816496580927726_0,
  116_00013523577124040698_116_00008799590021118496_016_00002689938063393106_117_00042001677176876356_016_00006291970706766932_116_00003338886116348349_015_00000816496580927726_0,
  116_00013523577124040698_116_00008125581165062826_117_00038921237665374214_016_00004126113968999543_016_00006606184330416307_116_00003338886116348349_115_00001224744871391589_0,
  116_00013523577124040698_116_00008799590021118496_115_00000606755098151446_017_00028219975602413067_016_00007077504765890371_016_00029950108064592316_115_00001224744871391589_0,
  116_00013023616787764485_116_00008799590021118496_015_00001044338377831127_114_00000132286659321677_016_00007863038825013812_016_00029950108064592316_115_00001224744871391589_0,
  116_00013023616787764485_116_00008125581165062826_016_00006259869903355426_116_00005905550713756088_016_00008648572884137251_116_00003338886116348349_015_00000816496580927726_0,
  116_00013023616787764485_116_00008125581165062826_117_00005453126665727467_017_00013172478578279617_016_00008962786507786628_116_00003338886116348349_015_00000816496580927726_0,
  116_00013023616787764485_116_00008125581165062826_117_00036690030265397766_016_00006232763552378227_016_00009277000131436004_116_00003338886116348349_015_00000816496580927726_0,
  116_00013023616787764485_116_00008125581165062826_116_00011980250591452053_016_00013555878770789835_016_00009591213755085379_016_00029950108064592316_115_00001224744871391589_0,
  116_00013023616787764485_116_00007451572309007539_016_00009439340448321867_116_00011222332995616573_015_00001037674781420882_116_00003338886116348349_015_00000816496580927726_0,
  115_00001252365645148799_114_00000061035545968962_019_00068269368420777075_117_00014916182533436123_016_00010690961437858195_116_00003338886116348349_115_00001224744871391589_0,
  115_00001252365645148799_115_00000677756345295187_116_00012203371331449697_016_00014759678532720513_015_00001116228187333226_116_00003338886116348349_015_00000816496580927726_0,
  116_00013023616787764485_116_00007451572309007539_116_00009079680971482668_117_00009900350192058306_016_00011476495496981636_116_00003338886116348349_115_00001224744871391589_0,
  116_00013523577124040698_116_00008799590021118496_018_00017982973841959956_117_00029963679557569567_014_00000119478159324557_116_00003338886116348349_115_00001224744871391589_0,
  116_00013523577124040698_116_00008799590021118496_117_00018282569215592054_117_00006890850787231645_016_00012419136367929764_116_00003338886116348349_015_00000816496580927726_0,
  116_00013523577124040698_116_00008799590021118496_116_00002609179511550963_016_00003624530734861761_015_00001273334999157914_116_00003338886116348349_015_00000816496580927726_0,
  116_00013523577124040698_116_00008125581165062826_017_00014069938084066472_116_00001993201487481394_016_00013047563615228517_016_00029950108064592316_115_00001224744871391589_0,
  116_00013023616787764485_116_00007451572309007539_016_00005925188793358959_116_00009216000059065448_016_00013833097674351955_016_00029950108064592316_115_00001224744871391589_0,
  116_00013023616787764485_116_00007451572309007539_116_00010641526151466183_015_00001917361099313299_016_00014618631733475396_116_00003338886116348349_115_00001224744871391589_0,
  116_00013023616787764485_116_00008125581165062826_115_00001192447040645264_016_00022484060338442347_015_00001508995216894946_116_00003338886116348349_115_00001224744871391589_1,
  115_00001252365645148799_116_00007451572309007539_116_00005342408576522114_016_00003524214088034203_116_00016959837443286896_116_00003338886116348349_015_00000816496580927726_0,
  115_00001252365645148799_116_00007451572309007539_116_00005732869871517993_016_00004828330496792433_116_00016645623819637518_116_00003338886116348349_115_00001224744871391589_0,
  115_00001252365645148799_116_00007451572309007539_016_00003191959728387807_116_00009316316705893005_116_00016174303384163455_116_00003338886116348349_015_00000816496580927726_0,
  116_00012023696115211493_115_00000677756345295187_116_00002664959696550374_016_00003223264147551537_116_00015860089760514078_116_00003338886116348349_015_00000816496580927726_0,
  116_00011523735778935282_116_00007451572309007539_017_00019090154734013484_117_00049023842454805255_116_00015545876136864702_116_00003338886116348349_115_00001224744871391589_0,
  116_00011523735778935282_116_00007451572309007539_017_00020205758434001708_118_00008718519775782523_115_00001507455570139064_116_00003338886116348349_015_00000816496580927726_0,
  116_00011523735778935282_116_00007451572309007539_117_00045057058015309454_017_00011166145641728534_116_00014760342077741262_116_00003338886116348349_015_00000816496580927726_0,
  116_00011523735778935282_115_00000677756345295187_116_00005900210426516227_017_00018188310919657433_116_00014446128454091887_116_00003338886116348349_115_00001224744871391589_0,
  116_00011523735778935282_116_00007451572309007539_016_00006873451938348949_116_00011924549523409467_116_00013974808018617824_116_00003338886116348349_015_00000816496580927726_0,
  116_00011523735778935282_116_00007451572309007539_116_00011812910036453819_016_00023788176747200582_116_00013660594394968446_116_00003338886116348349_115_00001224744871391589_0,
  116_00011523735778935282_116_00007451572309007539_015_00001133586673830185_116_00013730249166305482_116_00013189273959494383_116_00003338886116348349_015_00000816496580927726_0,
  116_00011023775442658785_116_00007451572309007539_117_00018282569215592054_116_00006507450594721428_116_00012875060335845006_116_00003338886116348349_015_00000816496580927726_0,
  116_00010523815106382575_114_00000061035545968962_117_00045614859865303564_016_00004427063909482209_115_00001256084671219563_116_00003338886116348349_015_00000816496580927726_0,
  116_00010523815106382575_114_00000061035545968962_116_00002832300251548608_117_00026954180152742907_116_00012246633088546255_116_00003338886116348349_115_00001224744871391589_0,
  116_00010523815106382575_114_00000061035545968962_016_00004474903983374266_115_00000530365083279075_115_00001177531265307219_116_00003338886116348349_015_00000816496580927726_0,
  116_00010023854770106078_116_00005429545740840913_017_00010723126984101795_017_00017185144451381926_116_00011461099029422814_116_00003338886116348349_115_00001224744871391589_0,
  116_00010023854770106078_116_00005429545740840913_016_00010722284703308325_116_00011322649642444131_116_00010989778593948751_116_00003338886116348349_015_00000816496580927726_0,
  116_00010023854770106078_114_00000061035545968962_017_00019647956584007595_116_00005203334185963199_116_00010675564970299374_116_00003338886116348349_115_00001224744871391589_0,
  116_00010523815106382575_115_00000677756345295187_116_00013876776881432036_016_00009844162838170248_115_00001020424453482531_116_00003338886116348349_015_00000816496580927726_0,
  116_00010523815106382575_116_00007451572309007539_116_00006848473571506217_117_00003881351382404913_116_00009890030911175934_016_00029950108064592316_115_00001224744871391589_0,
  116_00010523815106382575_116_00007451572309007539_017_00015185541784054696_016_00001919147738793301_116_00009104496852052494_116_00003338886116348349_015_00000816496580927726_0,
  116_00010523815106382575_115_00000677756345295187_116_00004617266171529768_016_00006533713492860893_116_00008790283228403118_116_00003338886116348349_015_00000816496580927726_0,
  116_00010523815106382575_115_00000677756345295187_118_00060109285157215794_117_00024947847216191754_116_00008476069604753742_116_00003338886116348349_015_00000816496580927726_0,
  116_00010523815106382575_114_00000061035545968962_116_00011199328001460296_015_00000964352954451514_116_00008161855981104366_116_00003338886116348349_115_00001224744871391589_0,
  116_00010523815106382575_114_00000061035545968962_017_00010723126984101795_117_00007894017255507152_116_00007690535545630302_116_00003338886116348349_115_00001224744871391589_0,
  116_00010523815106382575_114_00000061035545968962_017_00041960030583772095_116_00001892884840653836_116_00007219215110156237_116_00003338886116348349_115_00001224744871391589_0,
  116_00010023854770106078_114_00000061035545968962_017_00010165325134107683_117_00035982678367222964_116_00006747894674682174_016_00029950108064592316_115_00001224744871391589_0,
  116_00009523894433829583_117_00047555368847852436_116_00005342408576522114_016_00005329913730930215_116_00005962360615558734_116_00003338886116348349_015_00000816496580927726_0,
  116_00009523894433829583_117_00047555368847852436_116_00011534009111456762_016_00011047962600100927_116_00005648146991909357_016_00029950108064592316_115_00001224744871391589_0,
  116_00009523894433829583_117_00047555368847852436_016_00011893668588295963_116_00014833732281408603_117_00048626129327859174_116_00003338886116348349_115_00001224744871391589_0,
  116_00009523894433829583_116_00005429545740840913_117_00043941454315321227_016_00005831496965067996_116_00004391292497311854_116_00003338886116348349_115_00001224744871391589_0,
  116_00009523894433829583_116_00005429545740840913_016_00014682677838266525_116_00013128349285340146_115_00000391997206183779_116_00003338886116348349_015_00000816496580927726_0,
  116_00010023854770106078_116_00005429545740840913_117_00006568730365715691_117_00004884517850680491_117_00036057584381884134_116_00003338886116348349_015_00000816496580927726_0,
  116_00010023854770106078_116_00005429545740840913_117_00045057058015309454_118_00018750184458538297_117_00032915448145390375_116_00003338886116348349_015_00000816496580927726_0,
  116_00010023854770106078_116_00005429545740840913_117_00010473343315674478_117_00020935181343089515_117_00029773311908896616_016_00029950108064592316_115_00001224744871391589_0,
  116_00010023854770106078_116_00005429545740840913_116_00008968120601483845_016_00009743846191342698_117_00021917971317662216_116_00003338886116348349_015_00000816496580927726_0,
  116_00010523815106382575_116_00005429545740840913_117_00005453126665727467_116_00001892884840653836_117_00018775835081168454_116_00003338886116348349_115_00001224744871391589_0,
  116_00010023854770106078_116_00005429545740840913_117_00006568730365715691_116_00007610933709824549_117_00014062630726427813_116_00003338886116348349_015_00000816496580927726_0,
  116_00010023854770106078_116_00005429545740840913_115_00000562130950151917_016_00002922314207068864_117_00010920494489934053_116_00003338886116348349_115_00001224744871391589_0,
  116_00010523815106382575_115_00000677756345295187_017_00024668173233954607_117_00032973178962396227_118_00062072901351934134_116_00003338886116348349_015_00000816496580927726_0,
  116_00011023775442658785_116_00007451572309007539_117_00004895324815733354_117_00023944680747916175_117_00003065153898699653_116_00003338886116348349_015_00000816496580927726_0,
  116_00011523735778935282_116_00007451572309007539_117_00004895324815733354_117_00008897183723782728_019_00007698233779410749_116_00003338886116348349_115_00001224744871391589_0,
  116_00011523735778935282_116_00008125581165062826_016_00030691590933097554_116_00020953047737889534_017_00004790186692534748_116_00003338886116348349_115_00001224744871391589_0,
  116_00011523735778935282_116_00008125581165062826_016_00004307563428376032_116_00005805234066928531_017_00009503391047275388_116_00003338886116348349_015_00000816496580927726_0,
  116_00011523735778935282_116_00007451572309007539_016_00007933275453337764_116_00011723916229754356_017_00012645527283769148_116_00003338886116348349_115_00001224744871391589_0,
  116_00012023696115211493_116_00008125581165062826_116_00003557442656540954_016_00003022630853896422_016_00001735873163850979_116_00003338886116348349_015_00000816496580927726_0,
  115_00001252365645148799_116_00008799590021118496_116_00009358581896479724_016_00006533713492860893_016_00002050086787500355_116_00003338886116348349_015_00000816496580927726_0,
  115_00001252365645148799_116_00008799590021118496_018_00040295047841724455_116_00001993201487481394_016_00002364300411149731_116_00003338886116348349_115_00001224744871391589_0,
  116_00013023616787764485_116_00009473598877173782_117_00043383652465327116_018_00011344809589729025_016_00002835620846623795_016_00029950108064592316_115_00001224744871391589_0,
  116_00013023616787764485_116_00008799590021118496_016_00005534727498363079_115_00000811251694396233_017_00036211549057472353_116_00003338886116348349_015_00000816496580927726_0,
  116_00013523577124040698_116_00008799590021118496_017_00021321362133989932_117_00044008010113427437_016_00003935368529396611_116_00003338886116348349_115_00001224744871391589_0,
  116_00013023616787764485_116_00009473598877173782_117_00003779721115745129_117_00012909849596884967_017_00044066889648706753_116_00003338886116348349_015_00000816496580927726_0,
  116_00013523577124040698_116_00010147607733229451_016_00009550900818320689_116_00012325816110719694_016_00004720902588520051_116_00003338886116348349_115_00001224744871391589_0]

/-- lr/data.csv 8902-9001 -/
def dataCsv89 : List ℕ := [
  116_00013523577124040698_116_00009473598877173782_016_00002522597508394872_116_00010620433114651238_016_00005192223023994115_116_00003338886116348349_115_00001224744871391589_0,
  116_00013523577124040698_116_00009473598877173782_116_00005175068021523881_015_00001014511277865292_016_00005663543459468179_116_00003338886116348349_015_00000816496580927726_0,
  116_00013023616787764485_116_00008799590021118496_117_00009357739615686254_016_00006333080199205777_016_00005977757083117555_016_00029950108064592316_115_00001224744871391589_0,
  116_00013023616787764485_116_00008799590021118496_114_00000087449998614862_016_00009944479484997806_016_00006763291142240996_116_00003338886116348349_115_00001224744871391589_0,
  116_00013023616787764485_116_00008799590021118496_016_00002522597508394872_117_00017925681938262783_015_00000723461157771506_116_00003338886116348349_015_00000816496580927726_0,
  116_00013523577124040698_116_00009473598877173782_116_00008577659306487967_016_00015261261766858294_016_00007548825201364435_116_00003338886116348349_015_00000816496580927726_0,
  116_00013523577124040698_116_00008799590021118496_016_00002968838988390162_116_00005604600773273423_016_00007863038825013812_116_00003338886116348349_015_00000816496580927726_0,
  116_00014023537460317193_116_00009473598877173782_116_00007517835791499152_016_00003724847381689319_016_00008177252448663187_116_00003338886116348349_115_00001224744871391589_0,
  116_00014023537460317193_116_00010147607733229451_117_00011588947015662704_016_00004326747262654651_016_00008648572884137251_116_00003338886116348349_015_00000816496580927726_0,
  116_00014523497796593405_116_00010821616589285121_117_00005453126665727467_017_00004143980363799563_016_00008962786507786628_116_00003338886116348349_015_00000816496580927726_0,
  116_00014523497796593405_116_00010821616589285121_017_00006260712184148895_117_00029963679557569567_016_00009277000131436004_116_00003338886116348349_015_00000816496580927726_0,
  116_00014523497796593405_115_00001149562544534041_016_00013065052473283598_115_00001623816533699439_016_00009591213755085379_116_00003338886116348349_015_00000816496580927726_0,
  116_00014023537460317193_116_00010147607733229451_116_00005175068021523881_016_00003724847381689319_016_00009905427378734756_116_00003338886116348349_015_00000816496580927726_0,
  116_00014023537460317193_116_00010147607733229451_116_00002888080436548019_016_00006934980080171117_016_00010219641002384132_116_00003338886116348349_115_00001224744871391589_0,
  116_00013523577124040698_116_00010147607733229451_117_00008242135915698029_016_00009342579604032467_016_00010690961437858195_116_00003338886116348349_115_00001224744871391589_0,
  116_00014523497796593405_115_00001149562544534041_116_00007573615976498564_016_00014157778651755175_015_00001116228187333226_116_00003338886116348349_015_00000816496580927726_0,
  116_00014523497796593405_115_00001216963430139608_015_00004062046386299276_115_00002436381373002645_016_00011476495496981636_116_00003338886116348349_015_00000816496580927726_0,
  116_00014523497796593405_115_00001216963430139608_117_00005453126665727467_117_00020935181343089515_015_00001179070912063101_116_00003338886116348349_115_00001224744871391589_0,
  116_00014523497796593405_115_00001216963430139608_116_00007629396161497976_016_00011248595893756042_016_00012262029556105076_116_00003338886116348349_015_00000816496580927726_0,
  116_00014023537460317193_115_00001149562544534041_016_00008602637673330699_116_00012024866170237025_016_00012576243179754452_116_00003338886116348349_015_00000816496580927726_0,
  116_00014523497796593405_115_00001149562544534041_116_00002386058771553318_016_00005831496965067996_016_00012890456803403827_116_00003338886116348349_015_00000816496580927726_0,
  116_00014523497796593405_116_00012843643157451365_016_00005255826573366024_116_00006708083888376544_016_00013204670427053204_116_00003338886116348349_015_00000816496580927726_0,
  116_00014523497796593405_115_00001216963430139608_116_00007796736716496209_016_00002621364266586198_015_00001351888405070258_116_00003338886116348349_015_00000816496580927726_0,
  114_00000150234581328699_116_00012843643157451365_116_00009804823376475014_016_00005329913730930215_016_00013833097674351955_116_00003338886116348349_115_00001224744871391589_0,
  116_00014523497796593405_115_00001216963430139608_117_00006568730365715691_016_00002220097679275974_015_00001430441810982602_016_00029950108064592316_115_00001224744871391589_0,
  116_00014023537460317193_115_00001216963430139608_116_00007462055606499741_015_00000252104761975864_015_00001508995216894946_116_00003338886116348349_115_00001224744871391589_0,
  116_00013523577124040698_115_00001149562544534041_117_00044499256165315343_016_00019675194227270771_016_00015561272604423524_116_00003338886116348349_115_00001224744871391589_1,
  116_00013023616787764485_116_00010821616589285121_016_00013957535433274177_116_00015034365575063715_015_00001603259303989759_116_00003338886116348349_115_00001224744871391589_0,
  116_00013023616787764485_116_00010821616589285121_117_00004337522965739242_017_00015178811514830773_016_00016503913475371652_116_00003338886116348349_015_00000816496580927726_0,
  116_00013023616787764485_116_00010821616589285121_016_00004530684168373677_117_00042001677176876356_016_00016818127099021027_116_00003338886116348349_115_00001224744871391589_0,
  116_00013023616787764485_116_00010821616589285121_017_00017974551034025257_117_00005887684318956068_116_00016959837443286896_116_00003338886116348349_015_00000816496580927726_0,
  116_00013023616787764485_116_00010821616589285121_116_00005844430241516816_118_00008718519775782523_116_00016645623819637518_116_00003338886116348349_015_00000816496580927726_0,
  116_00013023616787764485_116_00010821616589285121_117_00036132228415403655_016_00003624530734861761_116_00016331410195988143_116_00003338886116348349_015_00000816496580927726_0,
  116_00013523577124040698_115_00001149562544534041_018_00029139010841842207_017_00017185144451381926_116_00016017196572338768_116_00003338886116348349_115_00001224744871391589_0,
  116_00013523577124040698_115_00001216963430139608_017_00034708606533848635_117_00043004843645151863_116_00015545876136864702_116_00003338886116348349_015_00000816496580927726_0,
  116_00013023616787764485_115_00001149562544534041_016_00014626897653267112_116_00013128349285340146_116_00015231662513215327_116_00003338886116348349_015_00000816496580927726_0,
  116_00013023616787764485_115_00001149562544534041_116_00004115244506535067_017_00020194643856208588_115_00001491744888956595_116_00003338886116348349_015_00000816496580927726_0,
  116_00013023616787764485_116_00010821616589285121_116_00011087767631461474_015_00001265302894934183_116_00014603235265916574_116_00003338886116348349_115_00001224744871391589_0,
  116_00013023616787764485_116_00010821616589285121_117_00012146748865656816_017_00010162979173452956_116_00014131914830442511_116_00003338886116348349_115_00001224744871391589_0,
  116_00013523577124040698_116_00010821616589285121_116_00005844430241516816_016_00004828330496792433_116_00013660594394968446_116_00003338886116348349_115_00001224744871391589_0,
  116_00013523577124040698_115_00001149562544534041_015_00002210144244318822_115_00002075241444423442_116_00013189273959494383_016_00029950108064592316_115_00001224744871391589_0,
  116_00013523577124040698_115_00001149562544534041_016_00003136179543388396_116_00007811567003479657_116_00012403739900370943_116_00003338886116348349_115_00001224744871391589_0,
  116_00013523577124040698_115_00001149562544534041_015_00003621382924803927_115_00002305969732126822_116_00011932419464896877_116_00003338886116348349_015_00000816496580927726_0,
  116_00013523577124040698_116_00010821616589285121_116_00005007727466525647_016_00004427063909482209_116_00011618205841247502_116_00003338886116348349_115_00001224744871391589_0,
  116_00013523577124040698_115_00001149562544534041_117_00037805633965385993_117_00017925681938262783_115_00001114688540577344_116_00003338886116348349_015_00000816496580927726_0,
  116_00013023616787764485_115_00001216963430139608_016_00005590507683362491_116_00006206500654238761_116_00010832671782124061_116_00003338886116348349_015_00000816496580927726_0,
  116_00013523577124040698_115_00001216963430139608_015_00001713700597824062_116_00015535948809201496_116_00010518458158474686_116_00003338886116348349_115_00001224744871391589_0,
  116_00013523577124040698_115_00001216963430139608_116_00004840386911527413_117_00017925681938262783_116_00010047137723000623_116_00003338886116348349_115_00001224744871391589_0,
  116_00013023616787764485_115_00001149562544534041_117_00031112011765456643_016_00001919147738793301_116_00009575817287526558_116_00003338886116348349_115_00001224744871391589_0,
  116_00013023616787764485_115_00001149562544534041_116_00014211457991428502_015_00002037741075506366_116_00009104496852052494_116_00003338886116348349_015_00000816496580927726_0,
  116_00013023616787764485_115_00001216963430139608_116_00006681133016507984_016_00010044796131825364_116_00008790283228403118_116_00003338886116348349_015_00000816496580927726_0,
  116_00013523577124040698_116_00012843643157451365_016_00012507250623289485_114_00000116235995829268_116_00008476069604753742_116_00003338886116348349_015_00000816496580927726_0,
  116_00014023537460317193_116_00013517652013507035_115_00000339010210154272_015_00000252104761975864_116_00008161855981104366_116_00003338886116348349_115_00001224744871391589_0,
  116_00013523577124040698_116_00013517652013507035_117_00011588947015662704_115_00000399953442403252_116_00007690535545630302_116_00003338886116348349_015_00000816496580927726_0,
  116_00013523577124040698_116_00013517652013507035_116_00005119287836524469_016_00009041629663549801_116_00007376321921980926_116_00003338886116348349_015_00000816496580927726_0,
  116_00013023616787764485_116_00013517652013507035_116_00010251064856470304_016_00015160945120030738_115_00000706210829833155_116_00003338886116348349_115_00001224744871391589_0,
  116_00013023616787764485_116_00012843643157451365_116_00010641526151466183_015_00001746822799706453_116_00006590787862857486_116_00003338886116348349_015_00000816496580927726_0,
  116_00013023616787764485_116_00012843643157451365_116_00010641526151466183_015_00001375651206444495_115_00000627657423920811_116_00003338886116348349_015_00000816496580927726_0,
  116_00013023616787764485_116_00012843643157451365_015_00001088962525830656_116_00012325816110719694_116_00005962360615558734_116_00003338886116348349_115_00001224744871391589_0,
  116_00013523577124040698_116_00013517652013507035_116_00006625352831508573_016_00006533713492860893_115_00000549104018008467_116_00003338886116348349_015_00000816496580927726_0,
  116_00013523577124040698_116_00014191660869562706_016_00014403776913269468_116_00015335315515546384_116_00005176826556435293_116_00003338886116348349_015_00000816496580927726_0,
  116_00013523577124040698_116_00013517652013507035_116_00007573615976498564_016_00005028963790447548_117_00048626129327859174_116_00003338886116348349_115_00001224744871391589_0,
  116_00013523577124040698_116_00014191660869562706_016_00004976925648368967_116_00009817899940030786_116_00004391292497311854_116_00003338886116348349_015_00000816496580927726_0,
  116_00014023537460317193_116_00014191660869562706_016_00008267956563334231_116_00009617266646375675_117_00040770788736624775_116_00003338886116348349_115_00001224744871391589_0,
  116_00014023537460317193_116_00014191660869562706_116_00004617266171529768_015_00000492864714361999_117_00036057584381884134_116_00003338886116348349_115_00001224744871391589_0,
  116_00014523497796593405_116_00014191660869562706_116_00002386058771553318_016_00004728013849964882_115_00000313443800271435_116_00003338886116348349_015_00000816496580927726_0,
  116_00014523497796593405_116_00014865669725617991_016_00005423167128364257_116_00009717583293203229_117_00028202243790649734_116_00003338886116348349_015_00000816496580927726_0,
  116_00014523497796593405_116_00014865669725617991_118_00015485137157686792_017_00004143980363799563_117_00025060107554155975_116_00003338886116348349_015_00000816496580927726_0,
  116_00014523497796593405_116_00014865669725617991_115_00000472882654152859_016_00010646696012790704_117_00021917971317662216_116_00003338886116348349_015_00000816496580927726_0,
  114_00000150234581328699_116_00014865669725617991_116_00007964077271494443_016_00010044796131825364_117_00018775835081168454_116_00003338886116348349_015_00000816496580927726_0,
  114_00000150234581328699_116_00016213687437728947_017_00020205758434001708_116_00002595101368446733_117_00015633698844674693_116_00003338886116348349_015_00000816496580927726_0,
  116_00015523418469146397_116_00016213687437728947_117_00013820154415639155_117_00043004843645151863_117_00012491562608180934_116_00003338886116348349_015_00000816496580927726_0,
  116_00016023378805422608_116_00017561705149840288_116_00004673046356529179_016_00009944479484997806_117_00009349426371687174_116_00003338886116348349_115_00001224744871391589_0,
  116_00016023378805422608_116_00017561705149840288_017_00005702910334154783_016_00008339413135756903_118_00046362220169465326_116_00003338886116348349_015_00000816496580927726_0,
  116_00016023378805422608_116_00016887696293784618_117_00036132228415403655_017_00024207309729310825_118_00014940857804527726_116_00003338886116348349_015_00000816496580927726_0,
  116_00016523339141699105_116_00017561705149840288_016_00006817671753349538_116_00005805234066928531_018_00016480504560409875_016_00029950108064592316_115_00001224744871391589_0,
  116_00016523339141699105_116_00017561705149840288_118_00021063155657627917_116_00005403967479618307_017_00009503391047275388_116_00003338886116348349_015_00000816496580927726_0,
  116_00015523418469146397_116_00016887696293784618_016_00000960752328411357_116_00008814733471755224_017_00012645527283769148_116_00003338886116348349_115_00001224744871391589_0,
  116_00015523418469146397_116_00016213687437728947_116_00005788650056517404_016_00005028963790447548_016_00001735873163850979_116_00003338886116348349_015_00000816496580927726_0,
  116_00015523418469146397_116_00016887696293784618_116_00011534009111456762_016_00011148279246928485_016_00002050086787500355_116_00003338886116348349_115_00001224744871391589_0,
  114_00000150234581328699_116_00016213687437728947_117_00014377956265633265_017_00024207309729310825_016_00002521407222974419_116_00003338886116348349_015_00000816496580927726_0,
  114_00000150234581328699_116_00015539678581673662_117_00020513776615568505_117_00005887684318956068_016_00002835620846623795_116_00003338886116348349_015_00000816496580927726_0,
  114_00000150234581328699_116_00015539678581673662_116_00012482272256446754_016_00020176777461408553_016_00003149834470273171_116_00003338886116348349_015_00000816496580927726_0,
  114_00000150234581328699_116_00015539678581673662_116_00015494402246414962_016_00011148279246928485_016_00003464048093922547_116_00003338886116348349_115_00001224744871391589_0,
  116_00014523497796593405_116_00014865669725617991_115_00000740627542150033_016_00020477727401891217_016_00003935368529396611_116_00003338886116348349_015_00000816496580927726_0,
  116_00014523497796593405_116_00014865669725617991_016_00002522597508394872_017_00023204143261035248_016_00004249582153045987_116_00003338886116348349_015_00000816496580927726_0,
  116_00014523497796593405_116_00014865669725617991_116_00005342408576522114_016_00003925480675344427_016_00004563795776695363_116_00003338886116348349_115_00001224744871391589_0,
  116_00014023537460317193_116_00014191660869562706_016_00002299476768397227_117_00042001677176876356_016_00005035116212169427_116_00003338886116348349_015_00000816496580927726_0,
  116_00014023537460317193_116_00014191660869562706_016_00015965622093252982_116_00015435632162373938_016_00005349329835818804_116_00003338886116348349_015_00000816496580927726_0,
  116_00014023537460317193_116_00014191660869562706_117_00038921237665374214_016_00008239096488929353_016_00005663543459468179_116_00003338886116348349_015_00000816496580927726_0,
  116_00014023537460317193_116_00014191660869562706_117_00025533993265515514_115_00000159193490017117_016_00005977757083117555_116_00003338886116348349_015_00000816496580927726_0,
  116_00013523577124040698_116_00013517652013507035_015_00000330352009838663_116_00010620433114651238_016_00006291970706766932_116_00003338886116348349_115_00001224744871391589_0,
  116_00014023537460317193_116_00014191660869562706_117_00049519472815262355_117_00027957346621018414_016_00006763291142240996_016_00029950108064592316_115_00001224744871391589_0,
  116_00014023537460317193_116_00014191660869562706_016_00005200046388366611_117_00024947847216191754_016_00007548825201364435_116_00003338886116348349_115_00001224744871391589_0,
  116_00014523497796593405_116_00014191660869562706_016_00024611550768161727_116_00019749247975958861_016_00008020145636838499_116_00003338886116348349_115_00001224744871391589_0,
  116_00014023537460317193_116_00013517652013507035_117_00036132228415403655_016_00003724847381689319_016_00008491466072312563_116_00003338886116348349_015_00000816496580927726_0,
  116_00014023537460317193_116_00014191660869562706_019_00068269368420777075_117_00028960513089293993_015_00000880567969596194_116_00003338886116348349_015_00000816496580927726_0,
  116_00014523497796593405_116_00014191660869562706_016_00003917102133380153_117_00010903516660333884_016_00009119893319611315_116_00003338886116348349_115_00001224744871391589_0,
  116_00014523497796593405_116_00013517652013507035_116_00004003684136536244_017_00028219975602413067_016_00009591213755085379_116_00003338886116348349_015_00000816496580927726_0,
  116_00014523497796593405_116_00014191660869562706_116_00002609179511550963_117_00005887684318956068_016_00009905427378734756_116_00003338886116348349_015_00000816496580927726_0]

/-- lr/data.csv 9002-9101 -/
def dataCsv90 : List ℕ := [
  114_00000150234581328699_116_00014191660869562706_117_00025533993265515514_016_00006132446905550669_016_00010219641002384132_116_00003338886116348349_015_00000816496580927726_0,
  114_00000150234581328699_116_00014865669725617991_116_00002162938031555673_118_00008718519775782523_016_00010533854626033508_116_00003338886116348349_015_00000816496580927726_0,
  116_00014523497796593405_116_00014865669725617991_116_00003445882286542132_117_00033976345430671806_016_00010848068249682883_116_00003338886116348349_015_00000816496580927726_0,
  116_00014523497796593405_116_00014191660869562706_115_00001097620726146265_016_00009141946310377358_015_00001116228187333226_116_00003338886116348349_015_00000816496580927726_0,
  116_00014523497796593405_116_00014865669725617991_118_00004329100157804543_115_00000570491742010098_016_00011476495496981636_116_00003338886116348349_115_00001224744871391589_0,
  116_00014023537460317193_116_00014191660869562706_116_00011255108186459706_016_00018170444524857428_014_00000119478159324557_116_00003338886116348349_015_00000816496580927726_0,
  116_00013523577124040698_116_00014191660869562706_116_00006792693386506806_017_00018188310919657433_016_00012262029556105076_116_00003338886116348349_015_00000816496580927726_0,
  116_00013023616787764485_116_00013517652013507035_116_00008689219676486789_016_00006232763552378227_016_00012576243179754452_116_00003338886116348349_015_00000816496580927726_0,
  116_00013023616787764485_116_00013517652013507035_116_00005509749131520348_017_00024207309729310825_016_00012890456803403827_116_00003338886116348349_115_00001224744871391589_0,
  116_00013523577124040698_116_00014191660869562706_016_00002243696583397816_116_00005604600773273423_016_00013361777238877892_116_00003338886116348349_015_00000816496580927726_0,
  116_00014023537460317193_116_00014191660869562706_116_00005453968946520936_019_00013131449069732513_016_00013675990862527267_116_00003338886116348349_015_00000816496580927726_0,
  116_00014023537460317193_116_00014191660869562706_117_00004895324815733354_117_00040998510708600777_016_00013990204486176645_116_00003338886116348349_115_00001224744871391589_0,
  116_00014023537460317193_116_00013517652013507035_016_00009271999893323634_115_00001403119910678815_016_00014461524921650708_116_00003338886116348349_015_00000816496580927726_0,
  116_00014023537460317193_116_00013517652013507035_116_00005788650056517404_016_00003022630853896422_016_00014775738545300083_016_00029950108064592316_115_00001224744871391589_0,
  116_00014023537460317193_116_00012843643157451365_116_00011087767631461474_016_00021380577223339223_016_00015561272604423524_116_00003338886116348349_115_00001224744871391589_1,
  116_00014023537460317193_116_00012843643157451365_116_00006011770796515049_016_00009743846191342698_015_00001603259303989759_116_00003338886116348349_015_00000816496580927726_1,
  116_00013523577124040698_115_00001216963430139608_116_00007964077271494443_016_00012753345596169388_016_00016346806663546964_116_00003338886116348349_015_00000816496580927726_1,
  116_00013523577124040698_116_00012843643157451365_116_00009470142266478546_015_00001205112906837649_015_00001666102028719634_116_00003338886116348349_115_00001224744871391589_0,
  116_00013523577124040698_116_00012843643157451365_017_00042517832433766206_117_00046014343049978595_016_00017132340722670405_116_00003338886116348349_015_00000816496580927726_1,
  116_00014023537460317193_116_00012843643157451365_016_00006873451938348949_116_00008714416824927665_116_00016959837443286896_116_00003338886116348349_015_00000816496580927726_0,
  116_00013523577124040698_115_00001216963430139608_017_00007934117734131232_116_00006507450594721428_116_00016645623819637518_116_00003338886116348349_015_00000816496580927726_0,
  116_00013023616787764485_115_00001216963430139608_118_00015485137157686792_116_00005403967479618307_116_00016331410195988143_116_00003338886116348349_115_00001224744871391589_0,
  116_00013023616787764485_115_00001149562544534041_017_00005145108484160671_015_00000663403013968845_116_00015860089760514078_116_00003338886116348349_015_00000816496580927726_0,
  116_00013023616787764485_115_00001149562544534041_016_00009327780078323045_116_00009115683412237894_116_00015545876136864702_116_00003338886116348349_015_00000816496580927726_0,
  116_00013023616787764485_115_00001149562544534041_115_00000963748282147678_016_00005530547024585329_116_00015231662513215327_116_00003338886116348349_015_00000816496580927726_0,
  115_00001252365645148799_116_00010821616589285121_116_00005509749131520348_117_00040998510708600777_115_00001491744888956595_116_00003338886116348349_015_00000816496580927726_0,
  115_00001252365645148799_116_00010821616589285121_016_00008156396193335408_116_00011924549523409467_116_00014603235265916574_116_00003338886116348349_115_00001224744871391589_0,
  116_00013023616787764485_115_00001149562544534041_116_00005286628391522703_016_00004025797322171985_116_00014131914830442511_116_00003338886116348349_115_00001224744871391589_0,
  116_00013023616787764485_115_00001149562544534041_116_00008019857456493854_016_00008740679723067134_116_00013660594394968446_116_00003338886116348349_015_00000816496580927726_0,
  116_00013023616787764485_115_00001149562544534041_117_00031112011765456643_116_00001190668312860946_115_00001334638077131907_116_00003338886116348349_015_00000816496580927726_0,
  115_00001252365645148799_116_00010821616589285121_116_00007573615976498564_016_00004326747262654651_116_00013032167147669695_116_00003338886116348349_115_00001224744871391589_0,
  115_00001252365645148799_116_00010821616589285121_016_00014180656173271824_116_00016137848690166836_115_00001256084671219563_016_00029950108064592316_115_00001224744871391589_0,
  116_00013023616787764485_115_00001149562544534041_016_00010276043223313036_116_00011222332995616573_115_00001177531265307219_116_00003338886116348349_015_00000816496580927726_0,
  116_00013023616787764485_115_00001216963430139608_116_00008521879121488555_017_00010162979173452956_116_00011461099029422814_116_00003338886116348349_015_00000816496580927726_0,
  116_00013023616787764485_115_00001216963430139608_016_00002578377693394283_016_00006232763552378227_115_00001114688540577344_016_00029950108064592316_115_00001224744871391589_0,
  116_00013523577124040698_116_00012843643157451365_016_00010722284703308325_116_00012325816110719694_116_00010361351346649998_116_00003338886116348349_115_00001224744871391589_0,
  116_00013523577124040698_115_00001149562544534041_117_00011031145165668592_117_00022941514279640599_116_00009890030911175934_116_00003338886116348349_015_00000816496580927726_0,
  116_00013523577124040698_115_00001216963430139608_016_00019926015228211182_116_00015636265456029053_116_00009575817287526558_116_00003338886116348349_015_00000816496580927726_0,
  116_00013523577124040698_115_00001149562544534041_015_00004569646069793918_114_00000251663469046469_116_00009261603663877183_116_00003338886116348349_015_00000816496580927726_0,
  116_00013523577124040698_115_00001149562544534041_116_00011031987446462062_016_00011950812421548933_116_00008947390040227806_116_00003338886116348349_115_00001224744871391589_0,
  116_00013523577124040698_115_00001149562544534041_017_00006260712184148895_117_00029963679557569567_116_00008476069604753742_116_00003338886116348349_015_00000816496580927726_0,
  116_00013523577124040698_115_00001149562544534041_116_00012816953366443222_015_00002158121051699434_116_00008161855981104366_116_00003338886116348349_015_00000816496580927726_0,
  116_00013523577124040698_116_00010821616589285121_016_00003359300283386041_116_00007109350475686768_115_00000784764235745499_116_00003338886116348349_115_00001224744871391589_0,
  116_00013023616787764485_116_00010821616589285121_115_00001092042707646324_019_00013131449069732513_116_00007376321921980926_116_00003338886116348349_015_00000816496580927726_0,
  116_00013023616787764485_116_00010821616589285121_116_00008968120601483845_118_00008718519775782523_115_00000706210829833155_116_00003338886116348349_015_00000816496580927726_0,
  116_00013023616787764485_116_00010821616589285121_017_00035824210233836856_116_00005403967479618307_116_00006747894674682174_116_00003338886116348349_015_00000816496580927726_0,
  116_00013023616787764485_116_00010821616589285121_016_00006985012308347772_116_00011924549523409467_116_00006433681051032798_116_00003338886116348349_015_00000816496580927726_0,
  116_00013523577124040698_116_00010821616589285121_116_00002832300251548608_116_00002595101368446733_116_00006119467427383422_116_00003338886116348349_015_00000816496580927726_0,
  116_00013523577124040698_116_00010821616589285121_116_00009414362081479135_016_00010546379365963146_116_00005805253803734046_116_00003338886116348349_115_00001224744871391589_0,
  116_00013523577124040698_116_00010147607733229451_018_00034717029341783334_115_00000570491742010098_116_00005333933368259982_116_00003338886116348349_015_00000816496580927726_0,
  116_00013023616787764485_116_00010147607733229451_017_00015185541784054696_116_00008614100178100111_116_00005019719744610606_116_00003338886116348349_115_00001224744871391589_0,
  116_00013023616787764485_116_00009473598877173782_016_00015686721168255926_116_00015435632162373938_117_00045483993091365416_116_00003338886116348349_015_00000816496580927726_0,
  116_00013023616787764485_116_00009473598877173782_015_00002020491615320824_116_00017943548333062846_117_00042341856854871657_116_00003338886116348349_115_00001224744871391589_0,
  116_00013023616787764485_116_00010147607733229451_016_00005534727498363079_116_00007811567003479657_117_00037628652500131016_116_00003338886116348349_115_00001224744871391589_0,
  116_00013523577124040698_116_00010821616589285121_117_00009915541465680366_117_00017925681938262783_117_00032915448145390375_116_00003338886116348349_115_00001224744871391589_0,
  116_00013523577124040698_116_00010821616589285121_016_00018141049308230022_116_00016940381864787284_117_00028202243790649734_016_00029950108064592316_115_00001224744871391589_0,
  116_00013523577124040698_115_00001149562544534041_115_00000606755098151446_016_00001919147738793301_117_00020346903199415334_116_00003338886116348349_015_00000816496580927726_0,
  116_00013523577124040698_116_00010821616589285121_016_00008212176378334819_116_00005504284126445864_117_00017204766962921575_116_00003338886116348349_115_00001224744871391589_0,
  116_00014023537460317193_115_00001149562544534041_115_00001186869022145323_016_00017267594703409421_117_00012491562608180934_116_00003338886116348349_115_00001224744871391589_0,
  116_00014023537460317193_115_00001149562544534041_015_00001485001839326476_116_00014432465694098375_117_00007778358253440293_116_00003338886116348349_015_00000816496580927726_0,
  116_00014023537460317193_115_00001149562544534041_116_00004784606726528002_016_00005831496965067996_118_00046362220169465326_016_00029950108064592316_115_00001224744871391589_0,
  116_00014023537460317193_116_00010821616589285121_015_00001808526912323061_115_00001403119910678815_017_00003219118574287868_116_00003338886116348349_115_00001224744871391589_0,
  116_00014023537460317193_115_00001149562544534041_017_00020763560283995822_116_00004701750951825417_017_00007932322929028508_116_00003338886116348349_015_00000816496580927726_0,
  116_00014023537460317193_115_00001149562544534041_116_00006681133016507984_118_00028781849141293357_017_00011074459165522269_116_00003338886116348349_015_00000816496580927726_0,
  116_00014023537460317193_116_00010821616589285121_016_00016411863573248273_116_00014833732281408603_016_00001421659540201603_116_00003338886116348349_015_00000816496580927726_0,
  116_00014023537460317193_116_00010821616589285121_014_00000358791481380428_115_00002275874738078555_016_00001735873163850979_016_00029950108064592316_115_00001224744871391589_0,
  116_00014023537460317193_115_00001149562544534041_016_00006538770828352481_116_00009717583293203229_016_00002521407222974419_116_00003338886116348349_015_00000816496580927726_0,
  116_00014523497796593405_115_00001216963430139608_116_00010474185596467949_016_00016665694822444082_016_00002835620846623795_116_00003338886116348349_015_00000816496580927726_0,
  116_00014523497796593405_115_00001216963430139608_015_00001401331561827359_116_00009717583293203229_016_00003149834470273171_016_00029950108064592316_115_00001224744871391589_0,
  116_00014023537460317193_115_00001216963430139608_016_00007765934898339529_116_00011924549523409467_016_00003935368529396611_116_00003338886116348349_115_00001224744871391589_0,
  116_00014523497796593405_115_00001216963430139608_116_00006234891536512694_016_00005229597084102664_017_00044066889648706753_116_00003338886116348349_015_00000816496580927726_0,
  114_00000150234581328699_116_00012843643157451365_116_00006123331166513871_016_00014057462004927617_016_00004720902588520051_116_00003338886116348349_015_00000816496580927726_0,
  116_00014023537460317193_116_00012843643157451365_016_00012897711918285364_116_00012827399344857475_016_00005035116212169427_016_00029950108064592316_115_00001224744871391589_0,
  116_00014023537460317193_116_00012843643157451365_016_00008379516933333053_116_00008814733471755224_016_00005820650271292868_116_00003338886116348349_015_00000816496580927726_0,
  116_00014023537460317193_116_00012843643157451365_017_00008491919584125346_017_00013172478578279617_016_00006134863894942243_116_00003338886116348349_115_00001224744871391589_0,
  116_00013523577124040698_116_00012843643157451365_117_00018282569215592054_115_00000399953442403252_016_00006606184330416307_116_00003338886116348349_015_00000816496580927726_0,
  116_00014023537460317193_116_00012843643157451365_117_00036132228415403655_016_00004326747262654651_016_00006920397954065683_116_00003338886116348349_015_00000816496580927726_0,
  116_00013523577124040698_116_00012843643157451365_016_00012451470438290075_116_00013930882459960594_015_00000723461157771506_116_00003338886116348349_015_00000816496580927726_0,
  116_00013523577124040698_116_00012843643157451365_017_00015185541784054696_117_00043004843645151863_016_00007548825201364435_116_00003338886116348349_015_00000816496580927726_0,
  116_00013523577124040698_116_00012843643157451365_017_00008491919584125346_017_00024207309729310825_016_00007863038825013812_016_00029950108064592316_115_00001224744871391589_0,
  116_00014023537460317193_116_00013517652013507035_016_00018419950233227078_115_00001463309898775349_016_00008648572884137251_116_00003338886116348349_015_00000816496580927726_0,
  116_00013523577124040698_116_00013517652013507035_117_00006568730365715691_117_00049023842454805255_016_00008962786507786628_116_00003338886116348349_015_00000816496580927726_0,
  116_00014023537460317193_116_00014191660869562706_116_00012816953366443222_015_00000964352954451514_016_00009277000131436004_116_00003338886116348349_015_00000816496580927726_0,
  116_00014023537460317193_116_00014191660869562706_018_00012404955342018832_117_00043004843645151863_016_00009591213755085379_116_00003338886116348349_115_00001224744871391589_0,
  116_00014023537460317193_116_00014191660869562706_115_00001186869022145323_016_00035525224426024673_016_00010062534190559445_116_00003338886116348349_015_00000816496580927726_1,
  116_00014523497796593405_116_00014191660869562706_116_00009693263006476192_016_00014057462004927617_015_00001037674781420882_016_00029950108064592316_115_00001224744871391589_0,
  116_00014523497796593405_116_00014865669725617991_116_00006179111351513282_016_00003724847381689319_015_00001116228187333226_116_00003338886116348349_015_00000816496580927726_0,
  116_00014523497796593405_116_00014865669725617991_016_00007933275453337764_116_00012426132757547248_016_00011476495496981636_116_00003338886116348349_015_00000816496580927726_0,
  116_00014523497796593405_116_00014191660869562706_016_00006873451938348949_116_00013128349285340146_015_00001179070912063101_116_00003338886116348349_115_00001224744871391589_0,
  116_00014023537460317193_116_00014191660869562706_016_00025113572433156426_116_00019749247975958861_016_00012262029556105076_116_00003338886116348349_015_00000816496580927726_0,
  116_00014023537460317193_116_00014191660869562706_016_00011614767663298906_116_00011021699701961463_016_00012576243179754452_116_00003338886116348349_115_00001224744871391589_0,
  116_00014023537460317193_116_00013517652013507035_016_00012618810993288307_116_00008915050118582778_016_00013047563615228517_116_00003338886116348349_115_00001224744871391589_0,
  116_00013523577124040698_116_00012843643157451365_016_00001630114548404292_116_00005604600773273423_015_00001351888405070258_116_00003338886116348349_015_00000816496580927726_0,
  116_00013523577124040698_116_00012843643157451365_016_00009495120633321278_116_00009416633352720559_016_00013833097674351955_116_00003338886116348349_115_00001224744871391589_0,
  116_00013523577124040698_116_00012843643157451365_116_00009414362081479135_016_00018872661052650317_015_00001430441810982602_116_00003338886116348349_115_00001224744871391589_0,
  116_00013523577124040698_116_00012843643157451365_117_00045057058015309454_016_00005731180318240445_016_00014775738545300083_116_00003338886116348349_015_00000816496580927726_0,
  116_00014023537460317193_116_00012843643157451365_016_00009662461188319512_116_00009115683412237894_015_00001508995216894946_116_00003338886116348349_015_00000816496580927726_0,
  116_00013523577124040698_116_00012843643157451365_016_00005757848238360724_117_00030966846025845146_016_00015404165792598836_116_00003338886116348349_015_00000816496580927726_0,
  116_00013523577124040698_116_00012843643157451365_116_00003947903951536833_016_00009844162838170248_116_00016959837443286896_116_00003338886116348349_015_00000816496580927726_0,
  116_00013523577124040698_116_00012843643157451365_116_00003445882286542132_016_00012352079008859156_116_00016645623819637518_016_00029950108064592316_115_00001224744871391589_0]

/-- lr/data.csv 9102-9201 -/
def dataCsv91 : List ℕ := [
  116_00013523577124040698_115_00001216963430139608_116_00005175068021523881_016_00013555878770789835_116_00015860089760514078_116_00003338886116348349_015_00000816496580927726_0,
  116_00013523577124040698_115_00001216963430139608_016_00006371430273354248_116_00008614100178100111_116_00015545876136864702_016_00029950108064592316_115_00001224744871391589_0,
  116_00013523577124040698_115_00001149562544534041_117_00024976191415521404_117_00017925681938262783_116_00014760342077741262_116_00003338886116348349_015_00000816496580927726_0,
  116_00013523577124040698_115_00001216963430139608_116_00002720739881549785_017_00010162979173452956_116_00014446128454091887_116_00003338886116348349_015_00000816496580927726_0,
  116_00013023616787764485_115_00001149562544534041_017_00006260712184148895_016_00007837829901619122_116_00014131914830442511_116_00003338886116348349_115_00001224744871391589_0,
  116_00013523577124040698_115_00001216963430139608_016_00007710154713340118_116_00005103017539135641_116_00013660594394968446_116_00003338886116348349_115_00001224744871391589_0,
  116_00013023616787764485_115_00001149562544534041_016_00017583247458235909_116_00018244498273545515_116_00013189273959494383_116_00003338886116348349_015_00000816496580927726_0,
  115_00001252365645148799_116_00010147607733229451_016_00006873451938348949_116_00009717583293203229_116_00012875060335845006_116_00003338886116348349_115_00001224744871391589_0,
  115_00001252365645148799_116_00009473598877173782_116_00005509749131520348_116_00001190668312860946_116_00012403739900370943_116_00003338886116348349_115_00001224744871391589_0,
  115_00001252365645148799_116_00009473598877173782_117_00014377956265633265_118_00028781849141293357_116_00011932419464896877_116_00003338886116348349_015_00000816496580927726_0,
  116_00012023696115211493_116_00009473598877173782_116_00008354538566490322_016_00009041629663549801_116_00011618205841247502_116_00003338886116348349_115_00001224744871391589_0,
  116_00012023696115211493_116_00009473598877173782_116_00010474185596467949_016_00011047962600100927_115_00001114688540577344_116_00003338886116348349_015_00000816496580927726_0,
  116_00012023696115211493_116_00009473598877173782_117_00031669813615450754_117_00016922515469987276_116_00010832671782124061_116_00003338886116348349_115_00001224744871391589_0,
  116_00012023696115211493_116_00009473598877173782_016_00011447427108300672_116_00011523282936099244_116_00010361351346649998_116_00003338886116348349_015_00000816496580927726_0,
  116_00012023696115211493_116_00008799590021118496_116_00003501662471541543_117_00009900350192058306_116_00010047137723000623_116_00003338886116348349_015_00000816496580927726_0,
  116_00012023696115211493_116_00009473598877173782_116_00005286628391522703_016_00008239096488929353_116_00009732924099351247_116_00003338886116348349_115_00001224744871391589_0,
  116_00012023696115211493_116_00008799590021118496_016_00006706111383350716_116_00007911883650307214_116_00009261603663877183_016_00029950108064592316_115_00001224744871391589_0,
  116_00012023696115211493_116_00008799590021118496_116_00003557442656540954_015_00000663403013968845_116_00008476069604753742_116_00003338886116348349_115_00001224744871391589_0,
  116_00012023696115211493_116_00009473598877173782_117_00007126532215709803_017_00021197810324484165_116_00008004749169279678_116_00003338886116348349_015_00000816496580927726_0,
  116_00013023616787764485_116_00010821616589285121_016_00007598594343341296_116_00010520116467823681_116_00007690535545630302_116_00003338886116348349_115_00001224744871391589_0,
  116_00013023616787764485_116_00010821616589285121_117_00007684334065703917_117_00012909849596884967_116_00007219215110156237_116_00003338886116348349_015_00000816496580927726_0,
  116_00013523577124040698_115_00001149562544534041_116_00007964077271494443_016_00005931813611895553_116_00006905001486506862_116_00003338886116348349_015_00000816496580927726_0,
  116_00013023616787764485_116_00010821616589285121_016_00002299476768397227_017_00012169312110004112_116_00006590787862857486_116_00003338886116348349_015_00000816496580927726_0,
  116_00013023616787764485_116_00010147607733229451_117_00042825850615333005_017_00028219975602413067_115_00000627657423920811_116_00003338886116348349_015_00000816496580927726_0,
  116_00013023616787764485_116_00010821616589285121_116_00006290671721512106_016_00010446062719135587_116_00005962360615558734_116_00003338886116348349_015_00000816496580927726_0,
  116_00013023616787764485_116_00010147607733229451_017_00016858947334037033_116_00005805234066928531_116_00005648146991909357_116_00003338886116348349_015_00000816496580927726_0,
  116_00013023616787764485_116_00010147607733229451_116_00003445882286542132_017_00007153479768626296_116_00005333933368259982_116_00003338886116348349_015_00000816496580927726_0,
  116_00013023616787764485_116_00010147607733229451_016_00012395690253290663_116_00012827399344857475_116_00005019719744610606_116_00003338886116348349_015_00000816496580927726_0,
  115_00001252365645148799_116_00009473598877173782_117_00029438606215474306_016_00005931813611895553_115_00000470550612096123_116_00003338886116348349_115_00001224744871391589_0,
  116_00012023696115211493_116_00009473598877173782_016_00006985012308347772_115_00000991821658685834_117_00042341856854871657_116_00003338886116348349_015_00000816496580927726_0,
  116_00012023696115211493_116_00009473598877173782_017_00020763560283995822_116_00007309983769341876_115_00000391997206183779_116_00003338886116348349_015_00000816496580927726_0,
  116_00012023696115211493_116_00009473598877173782_116_00004226804876533889_016_00006734346786516008_117_00036057584381884134_016_00029950108064592316_115_00001224744871391589_0,
  116_00012023696115211493_116_00009473598877173782_016_00002578377693394283_017_00020194643856208588_117_00028202243790649734_116_00003338886116348349_115_00001224744871391589_0,
  116_00011523735778935282_116_00008799590021118496_116_00003334321916543309_016_00005731180318240445_117_00023489039435909095_116_00003338886116348349_015_00000816496580927726_0,
  116_00011523735778935282_116_00008799590021118496_116_00005007727466525647_018_00021376474272484798_117_00020346903199415334_116_00003338886116348349_015_00000816496580927726_0,
  116_00011523735778935282_116_00008125581165062826_116_00007517835791499152_015_00001034574607230803_117_00017204766962921575_016_00029950108064592316_115_00001224744871391589_0,
  116_00011523735778935282_116_00008799590021118496_015_00000865841785833011_116_00010921383055133904_117_00009349426371687174_116_00003338886116348349_015_00000816496580927726_0,
  116_00011523735778935282_116_00008799590021118496_016_00010722284703308325_114_00000116235995829268_118_00062072901351934134_116_00003338886116348349_015_00000816496580927726_0,
  116_00012023696115211493_116_00009473598877173782_117_00009357739615686254_117_00029963679557569567_117_00003065153898699653_116_00003338886116348349_015_00000816496580927726_0,
  115_00001252365645148799_116_00010147607733229451_118_00015485137157686792_117_00030966846025845146_019_00007698233779410749_116_00003338886116348349_015_00000816496580927726_0,
  115_00001252365645148799_116_00010147607733229451_116_00009247021526480902_118_00008718519775782523_017_00003219118574287868_116_00003338886116348349_015_00000816496580927726_0,
  115_00001252365645148799_116_00010147607733229451_016_00003247739913387218_117_00035982678367222964_017_00006361254810781627_116_00003338886116348349_015_00000816496580927726_0,
  116_00012023696115211493_116_00010147607733229451_016_00007765934898339529_116_00005805234066928531_017_00009503391047275388_116_00003338886116348349_015_00000816496580927726_0,
  116_00012023696115211493_116_00010147607733229451_116_00004840386911527413_016_00002621364266586198_017_00012645527283769148_116_00003338886116348349_015_00000816496580927726_0,
  115_00001252365645148799_116_00010147607733229451_116_00005119287836524469_016_00001618197798310635_016_00001578766352026291_116_00003338886116348349_115_00001224744871391589_0,
  116_00012023696115211493_116_00010147607733229451_017_00019647956584007595_117_00028960513089293993_016_00002050086787500355_116_00003338886116348349_015_00000816496580927726_0,
  116_00012023696115211493_116_00009473598877173782_118_00060109285157215794_019_00013131449069732513_016_00002364300411149731_116_00003338886116348349_015_00000816496580927726_0,
  116_00011523735778935282_116_00008799590021118496_016_00008323736748333642_116_00012827399344857475_016_00002678514034799107_116_00003338886116348349_015_00000816496580927726_0,
  116_00012023696115211493_116_00009473598877173782_116_00008131417826492676_017_00004143980363799563_016_00002992727658448483_116_00003338886116348349_015_00000816496580927726_0,
  115_00001252365645148799_116_00009473598877173782_116_00006123331166513871_016_00010546379365963146_016_00003306941282097859_116_00003338886116348349_115_00001224744871391589_0,
  115_00001252365645148799_116_00009473598877173782_116_00010697306336465593_016_00017066961409754307_016_00003778261717571923_116_00003338886116348349_115_00001224744871391589_0,
  116_00012023696115211493_116_00009473598877173782_017_00007934117734131232_017_00005147146832075141_016_00004249582153045987_116_00003338886116348349_015_00000816496580927726_0,
  115_00001252365645148799_116_00009473598877173782_116_00015550182431414372_016_00013656195417617392_016_00004563795776695363_116_00003338886116348349_015_00000816496580927726_0,
  115_00001252365645148799_116_00009473598877173782_018_00040295047841724455_116_00006206500654238761_017_00048780094003447394_116_00003338886116348349_015_00000816496580927726_0,
  115_00001252365645148799_116_00009473598877173782_016_00003191959728387807_115_00000399953442403252_016_00005192223023994115_116_00003338886116348349_015_00000816496580927726_0,
  115_00001252365645148799_116_00010147607733229451_116_00011087767631461474_015_00001746822799706453_016_00005506436647643491_116_00003338886116348349_015_00000816496580927726_0,
  115_00001252365645148799_116_00010821616589285121_116_00009470142266478546_016_00014859995179548064_016_00005820650271292868_116_00003338886116348349_115_00001224744871391589_0,
  115_00001252365645148799_116_00010147607733229451_117_00042825850615333005_016_00012352079008859156_016_00006291970706766932_116_00003338886116348349_015_00000816496580927726_0,
  116_00013023616787764485_116_00010821616589285121_116_00002888080436548019_016_00006232763552378227_016_00006606184330416307_016_00029950108064592316_115_00001224744871391589_0,
  115_00001252365645148799_116_00009473598877173782_117_00016051361815615603_117_00045011176581703016_016_00007391718389539748_116_00003338886116348349_115_00001224744871391589_0,
  115_00001252365645148799_116_00010147607733229451_016_00007375473603343651_116_00012024866170237025_016_00007863038825013812_016_00029950108064592316_115_00001224744871391589_0,
  115_00001252365645148799_116_00010147607733229451_016_00004084442688378387_116_00010018533233685898_016_00008648572884137251_116_00003338886116348349_115_00001224744871391589_0,
  116_00012023696115211493_116_00009473598877173782_117_00016609163665609716_118_00028781849141293357_016_00009119893319611315_116_00003338886116348349_115_00001224744871391589_0,
  116_00012023696115211493_116_00009473598877173782_115_00000690425375650563_016_00007336246667481341_016_00009591213755085379_116_00003338886116348349_015_00000816496580927726_0,
  116_00012023696115211493_116_00009473598877173782_015_00004714674550792387_116_00025667930138784687_016_00009905427378734756_116_00003338886116348349_015_00000816496580927726_0,
  116_00012023696115211493_116_00009473598877173782_115_00001186869022145323_016_00022484060338442347_016_00010219641002384132_116_00003338886116348349_015_00000816496580927726_0,
  116_00012023696115211493_116_00009473598877173782_115_00000829875838149091_016_00013455562123962277_016_00010533854626033508_116_00003338886116348349_115_00001224744871391589_0,
  116_00012023696115211493_116_00008799590021118496_116_00008187198011492087_017_00012169312110004112_016_00011005175061507573_116_00003338886116348349_115_00001224744871391589_0,
  116_00012023696115211493_116_00008125581165062826_116_00008577659306487967_016_00004427063909482209_016_00011476495496981636_016_00029950108064592316_115_00001224744871391589_0,
  116_00011523735778935282_116_00008125581165062826_016_00019926015228211182_116_00015535948809201496_016_00012262029556105076_116_00003338886116348349_015_00000816496580927726_0,
  116_00011523735778935282_116_00008799590021118496_117_00036132228415403655_016_00006834663433343559_016_00012576243179754452_116_00003338886116348349_015_00000816496580927726_0,
  116_00011523735778935282_116_00008125581165062826_116_00008410318751489733_016_00005630863671412888_016_00012890456803403827_116_00003338886116348349_115_00001224744871391589_0,
  116_00011523735778935282_116_00007451572309007539_016_00009829801743317745_116_00012827399344857475_016_00013361777238877892_116_00003338886116348349_015_00000816496580927726_0,
  116_00011023775442658785_116_00007451572309007539_016_00006204089718356014_116_00007811567003479657_016_00013675990862527267_016_00029950108064592316_115_00001224744871391589_0,
  116_00011023775442658785_116_00007451572309007539_014_00000185315106032259_116_00014432465694098375_016_00014461524921650708_116_00003338886116348349_015_00000816496580927726_1,
  116_00011023775442658785_115_00000677756345295187_116_00007573615976498564_016_00024289759981338364_116_00016959837443286896_116_00003338886116348349_015_00000816496580927726_1,
  116_00011023775442658785_116_00007451572309007539_117_00011588947015662704_017_00004143980363799563_116_00016645623819637518_116_00003338886116348349_015_00000816496580927726_0,
  116_00010523815106382575_114_00000061035545968962_117_00019398172915580278_016_00003022630853896422_116_00016331410195988143_116_00003338886116348349_015_00000816496580927726_0,
  116_00011023775442658785_115_00000677756345295187_116_00011087767631461474_016_00016966644762926748_116_00016017196572338768_116_00003338886116348349_015_00000816496580927726_0,
  116_00010523815106382575_114_00000061035545968962_116_00005788650056517404_016_00004728013849964882_115_00001570298294868939_016_00029950108064592316_115_00001224744871391589_0,
  116_00010523815106382575_114_00000061035545968962_116_00001772476736559794_117_00030966846025845146_115_00001491744888956595_116_00003338886116348349_015_00000816496580927726_0,
  116_00010523815106382575_114_00000061035545968962_117_00009915541465680366_117_00038992177772049624_116_00014603235265916574_116_00003338886116348349_015_00000816496580927726_0,
  116_00011023775442658785_115_00000677756345295187_017_00020763560283995822_016_00005028963790447548_114_00000142890216422672_116_00003338886116348349_115_00001224744871391589_0,
  116_00010523815106382575_114_00000061035545968962_018_00023560992341901083_117_00033976345430671806_116_00013817701206793134_116_00003338886116348349_015_00000816496580927726_0,
  116_00010023854770106078_116_00005429545740840913_016_00007040792493347183_117_00033976345430671806_116_00013503487583143758_116_00003338886116348349_015_00000816496580927726_0,
  116_00010523815106382575_114_00000061035545968962_116_00005398188761521525_015_00001034574607230803_116_00013189273959494383_116_00003338886116348349_015_00000816496580927726_0,
  116_00010523815106382575_115_00000677756345295187_016_00005032705833368378_116_00011021699701961463_116_00012875060335845006_116_00003338886116348349_015_00000816496580927726_0,
  116_00010523815106382575_115_00000677756345295187_116_00008912340416484434_016_00007336246667481341_115_00001256084671219563_116_00003338886116348349_015_00000816496580927726_0,
  116_00010523815106382575_115_00000677756345295187_117_00020513776615568505_018_00021376474272484798_116_00012246633088546255_116_00003338886116348349_015_00000816496580927726_0,
  116_00010523815106382575_114_00000061035545968962_016_00003136179543388396_116_00008012200297134773_116_00011932419464896877_116_00003338886116348349_015_00000816496580927726_0,
  116_00010023854770106078_115_00000677756345295187_115_00000556552931651976_117_00014916182533436123_116_00011618205841247502_116_00003338886116348349_115_00001224744871391589_0,
  116_00010523815106382575_115_00000677756345295187_016_00024053748918167615_116_00018445131567200628_115_00001114688540577344_116_00003338886116348349_115_00001224744871391589_0,
  116_00010523815106382575_115_00000677756345295187_017_00012954334384078245_117_00042001677176876356_116_00010675564970299374_116_00003338886116348349_015_00000816496580927726_0,
  116_00010523815106382575_115_00000677756345295187_117_00004895324815733354_016_00000915981270517738_116_00010361351346649998_116_00003338886116348349_115_00001224744871391589_0,
  116_00010523815106382575_116_00007451572309007539_116_00008131417826492676_017_00006150313300350718_116_00009890030911175934_116_00003338886116348349_015_00000816496580927726_0,
  116_00010523815106382575_115_00000677756345295187_117_00003779721115745129_117_00023944680747916175_116_00009575817287526558_116_00003338886116348349_015_00000816496580927726_0,
  116_00010023854770106078_116_00007451572309007539_016_00003805541763381331_117_00022941514279640599_116_00009261603663877183_116_00003338886116348349_015_00000816496580927726_0,
  116_00010523815106382575_116_00008125581165062826_117_00038921237665374214_016_00009041629663549801_116_00008947390040227806_116_00003338886116348349_115_00001224744871391589_0,
  116_00010523815106382575_116_00008125581165062826_118_00004329100157804543_117_00023944680747916175_116_00008476069604753742_116_00003338886116348349_115_00001224744871391589_0,
  116_00010523815106382575_116_00008125581165062826_017_00041402228733777985_116_00008614100178100111_116_00008004749169279678_116_00003338886116348349_015_00000816496580927726_0]

/-- lr/data.csv 9202-9301 -/
def dataCsv92 : List ℕ := [
  116_00010523815106382575_116_00008125581165062826_017_00035266408383842746_116_00007911883650307214_116_00007690535545630302_116_00003338886116348349_115_00001224744871391589_0,
  116_00011023775442658785_116_00008799590021118496_116_00007517835791499152_017_00042264306158271003_116_00007219215110156237_116_00003338886116348349_015_00000816496580927726_0,
  116_00011023775442658785_116_00008125581165062826_017_00005145108484160671_117_00030966846025845146_116_00006905001486506862_116_00003338886116348349_015_00000816496580927726_0,
  116_00011023775442658785_116_00008125581165062826_017_00011280928834095907_117_00048020675986529676_116_00006590787862857486_116_00003338886116348349_015_00000816496580927726_0,
  116_00011023775442658785_116_00008125581165062826_016_00004586464353373088_117_00038992177772049624_115_00000627657423920811_116_00003338886116348349_015_00000816496580927726_0,
  116_00011023775442658785_116_00008125581165062826_016_00002243696583397816_116_00007109350475686768_116_00005962360615558734_116_00003338886116348349_015_00000816496580927726_0,
  116_00010523815106382575_116_00007451572309007539_017_00004587306634166558_016_00004025797322171985_116_00005648146991909357_116_00003338886116348349_115_00001224744871391589_0,
  116_00010523815106382575_116_00008125581165062826_116_00008521879121488555_016_00008640363076239577_116_00005176826556435293_116_00003338886116348349_015_00000816496580927726_0,
  116_00010023854770106078_116_00007451572309007539_115_00000740627542150033_016_00000915981270517738_117_00048626129327859174_116_00003338886116348349_015_00000816496580927726_0,
  116_00010023854770106078_115_00000677756345295187_116_00008131417826492676_016_00015963478294651186_117_00045483993091365416_116_00003338886116348349_115_00001224744871391589_0,
  116_00010523815106382575_115_00000677756345295187_015_00005116291882788148_115_00002616951337292247_117_00040770788736624775_116_00003338886116348349_115_00001224744871391589_0,
  116_00010023854770106078_115_00000677756345295187_116_00007238934866502097_016_00009141946310377358_117_00036057584381884134_116_00003338886116348349_115_00001224744871391589_0,
  116_00010023854770106078_116_00007451572309007539_115_00000829875838149091_016_00013957145358100058_115_00000313443800271435_116_00003338886116348349_015_00000816496580927726_0,
  116_00010023854770106078_115_00000677756345295187_015_00000782171508333894_116_00007610933709824549_117_00028202243790649734_116_00003338886116348349_015_00000816496580927726_0,
  116_00010023854770106078_116_00007451572309007539_116_00001716696551560383_117_00028960513089293993_117_00025060107554155975_116_00003338886116348349_015_00000816496580927726_0,
  116_00010523815106382575_116_00008125581165062826_016_00007933275453337764_116_00008313150237617443_117_00021917971317662216_116_00003338886116348349_015_00000816496580927726_0,
  116_00011523735778935282_116_00008125581165062826_117_00038921237665374214_016_00003724847381689319_117_00018775835081168454_016_00029950108064592316_115_00001224744871391589_0,
  116_00011023775442658785_116_00008125581165062826_116_00006569572646509162_015_00000964352954451514_117_00010920494489934053_116_00003338886116348349_015_00000816496580927726_0,
  116_00011523735778935282_116_00008125581165062826_116_00010306845041469714_015_00001024542942548048_117_00007778358253440293_116_00003338886116348349_015_00000816496580927726_0,
  116_00011523735778935282_116_00008125581165062826_115_00001052996578146736_016_00017066961409754307_118_00046362220169465326_116_00003338886116348349_115_00001224744871391589_0,
  116_00011023775442658785_116_00007451572309007539_116_00014323018361427324_016_00018170444524857428_019_00007698233779410749_116_00003338886116348349_015_00000816496580927726_0,
  116_00011023775442658785_115_00000677756345295187_016_00007598594343341296_116_00010018533233685898_017_00003219118574287868_116_00003338886116348349_115_00001224744871391589_0,
  116_00010523815106382575_115_00000677756345295187_117_00007684334065703917_117_00014916182533436123_017_00007932322929028508_116_00003338886116348349_115_00001224744871391589_0,
  116_00010523815106382575_115_00000677756345295187_114_00000087449998614862_016_00003925480675344427_017_00012645527283769148_116_00003338886116348349_015_00000816496580927726_0,
  116_00010523815106382575_115_00000677756345295187_117_00049519472815262355_016_00006834663433343559_016_00001578766352026291_116_00003338886116348349_015_00000816496580927726_0,
  116_00010023854770106078_114_00000061035545968962_016_00015686721168255926_114_00000164387986306495_017_00018929799756756668_116_00003338886116348349_015_00000816496580927726_0,
  116_00010023854770106078_114_00000061035545968962_015_00001579828153825475_115_00001653911527747706_016_00002207193599325043_116_00003338886116348349_015_00000816496580927726_0,
  116_00010023854770106078_114_00000061035545968962_117_00036690030265397766_016_00004326747262654651_016_00002521407222974419_116_00003338886116348349_015_00000816496580927726_0,
  116_00009523894433829583_114_00000061035545968962_016_00001853235288401937_117_00024947847216191754_016_00002835620846623795_116_00003338886116348349_115_00001224744871391589_0,
  116_00009523894433829583_115_00000677756345295187_016_00028069922238125224_115_00002225716414664777_016_00003306941282097859_116_00003338886116348349_115_00001224744871391589_0,
  116_00009023934097553371_116_00005429545740840913_016_00021376300038195875_116_00017441965098925065_016_00003778261717571923_116_00003338886116348349_015_00000816496580927726_0,
  116_00009023934097553371_114_00000061035545968962_019_00012489183421365824_117_00034979511898947385_016_00004092475341221299_116_00003338886116348349_015_00000816496580927726_0,
  116_00009023934097553371_114_00000061035545968962_115_00001052996578146736_015_00001205112906837649_017_00044066889648706753_116_00003338886116348349_015_00000816496580927726_0,
  116_00008523973761276875_114_00000061035545968962_116_00007573615976498564_016_00005129280437275106_016_00004720902588520051_116_00003338886116348349_015_00000816496580927726_0,
  116_00008523973761276875_114_00000061035545968962_016_00020372256708206473_116_00019749247975958861_016_00005035116212169427_116_00003338886116348349_015_00000816496580927726_0,
  116_00009023934097553371_116_00007451572309007539_016_00002968838988390162_117_00048020675986529676_016_00005349329835818804_116_00003338886116348349_115_00001224744871391589_0,
  116_00009523894433829583_116_00008799590021118496_016_00000960752328411357_116_00008413466884444997_016_00005820650271292868_116_00003338886116348349_015_00000816496580927726_0,
  116_00009523894433829583_116_00008125581165062826_016_00015184699503261225_115_00001463309898775349_016_00006134863894942243_116_00003338886116348349_115_00001224744871391589_0,
  116_00009023934097553371_116_00008125581165062826_116_00004617266171529768_017_00012169312110004112_016_00006606184330416307_116_00003338886116348349_115_00001224744871391589_0,
  116_00009023934097553371_116_00008125581165062826_116_00005732869871517993_016_00011950812421548933_016_00007077504765890371_016_00029950108064592316_115_00001224744871391589_0,
  116_00009523894433829583_116_00008799590021118496_116_00009860603561474425_015_00000964352954451514_016_00007863038825013812_116_00003338886116348349_115_00001224744871391589_0,
  116_00009523894433829583_116_00008799590021118496_016_00008044835823336586_116_00010921383055133904_016_00008334359260487876_116_00003338886116348349_015_00000816496580927726_0,
  116_00009023934097553371_116_00008799590021118496_116_00015048160766419671_013_00000020979310636029_016_00008648572884137251_116_00003338886116348349_115_00001224744871391589_0,
  116_00008523973761276875_116_00008125581165062826_115_00000472882654152859_016_00009041629663549801_016_00009119893319611315_116_00003338886116348349_015_00000816496580927726_0,
  116_00008523973761276875_116_00008125581165062826_015_00001273037136328713_115_00001272708269802992_016_00009434106943260692_116_00003338886116348349_015_00000816496580927726_0,
  116_00008523973761276875_116_00007451572309007539_016_00009439340448321867_115_00001272708269802992_016_00009748320566910068_116_00003338886116348349_015_00000816496580927726_0,
  116_00008523973761276875_116_00007451572309007539_014_00000180294889382312_116_00013028032638512588_016_00010062534190559445_116_00003338886116348349_015_00000816496580927726_0,
  116_00008523973761276875_116_00007451572309007539_016_00008714198043329521_116_00009316316705893005_015_00001037674781420882_116_00003338886116348349_015_00000816496580927726_0,
  116_00008523973761276875_114_00000061035545968962_116_00002832300251548608_017_00006150313300350718_016_00010690961437858195_116_00003338886116348349_115_00001224744871391589_0,
  116_00008523973761276875_115_00000677756345295187_016_00006594551013351894_116_00007811567003479657_015_00001116228187333226_116_00003338886116348349_015_00000816496580927726_0,
  116_00008523973761276875_115_00000677756345295187_015_00001585406172325416_116_00014131515753615709_016_00011476495496981636_016_00029950108064592316_115_00001224744871391589_0,
  116_00009023934097553371_114_00000061035545968962_016_00006259869903355426_116_00011222332995616573_016_00012262029556105076_116_00003338886116348349_115_00001224744871391589_0,
  116_00009523894433829583_115_00000677756345295187_118_00032219192657510165_117_00038992177772049624_015_00001273334999157914_116_00003338886116348349_115_00001224744871391589_0,
  116_00009023934097553371_115_00000677756345295187_116_00001716696551560383_017_00005147146832075141_016_00013204670427053204_116_00003338886116348349_115_00001224744871391589_0,
  116_00008523973761276875_114_00000061035545968962_016_00004307563428376032_116_00008915050118582778_016_00013675990862527267_116_00003338886116348349_015_00000816496580927726_0,
  116_00009023934097553371_115_00000677756345295187_016_00006259869903355426_116_00008513783531272554_016_00013990204486176645_116_00003338886116348349_015_00000816496580927726_0,
  116_00009023934097553371_114_00000061035545968962_017_00016858947334037033_117_00048020675986529676_015_00001430441810982602_116_00003338886116348349_015_00000816496580927726_0,
  116_00008523973761276875_114_00000061035545968962_116_00013542095771435567_016_00018772344405822765_016_00014618631733475396_116_00003338886116348349_115_00001224744871391589_0,
  116_00008523973761276875_115_00000677756345295187_116_00008912340416484434_016_00003223264147551537_116_00016959837443286896_016_00029950108064592316_115_00001224744871391589_0,
  116_00009023934097553371_115_00000677756345295187_015_00000865841785833011_116_00012024866170237025_116_00016174303384163455_116_00003338886116348349_115_00001224744871391589_0,
  116_00009023934097553371_115_00000677756345295187_116_00009023900786483257_016_00017869494584374754_115_00001570298294868939_116_00003338886116348349_015_00000816496580927726_0,
  116_00008523973761276875_115_00000677756345295187_117_00038363435815380104_115_00000159193490017117_116_00015388769325040015_016_00029950108064592316_115_00001224744871391589_0,
  116_00008523973761276875_114_00000061035545968962_116_00007517835791499152_016_00007035296726998674_116_00014603235265916574_116_00003338886116348349_115_00001224744871391589_0,
  116_00008523973761276875_114_00000061035545968962_017_00030246191733895733_018_00011344809589729025_116_00014131914830442511_116_00003338886116348349_015_00000816496580927726_0,
  116_00008523973761276875_115_00000677756345295187_117_00007126532215709803_117_00030966846025845146_116_00013817701206793134_116_00003338886116348349_115_00001224744871391589_0,
  116_00008523973761276875_116_00007451572309007539_115_00000829875838149091_016_00009743846191342698_115_00001334638077131907_116_00003338886116348349_115_00001224744871391589_0,
  116_00009023934097553371_116_00007451572309007539_016_00011056965813304793_116_00014532782340925934_116_00012875060335845006_116_00003338886116348349_015_00000816496580927726_0,
  116_00009023934097553371_116_00008125581165062826_116_00009860603561474425_015_00001736791135023697_115_00001256084671219563_116_00003338886116348349_015_00000816496580927726_0,
  116_00009023934097553371_116_00008125581165062826_016_00007096572678346594_116_00008513783531272554_116_00012246633088546255_116_00003338886116348349_015_00000816496580927726_0,
  116_00009023934097553371_116_00008125581165062826_116_00010306845041469714_013_00000020979310636029_116_00011932419464896877_116_00003338886116348349_015_00000816496580927726_0,
  116_00009023934097553371_116_00008125581165062826_114_00000132074146614391_016_00020477727401891217_116_00011618205841247502_116_00003338886116348349_015_00000816496580927726_0,
  116_00009023934097553371_116_00008799590021118496_015_00002522513280315525_116_00019548614682303749_116_00011303992217598127_116_00003338886116348349_015_00000816496580927726_0,
  116_00009023934097553371_116_00009473598877173782_116_00010362625226469127_016_00014157778651755175_116_00010989778593948751_116_00003338886116348349_015_00000816496580927726_0,
  116_00009023934097553371_116_00008799590021118496_117_00010473343315674478_117_00043004843645151863_116_00010675564970299374_016_00029950108064592316_115_00001224744871391589_0,
  116_00009023934097553371_116_00008799590021118496_116_00006179111351513282_015_00001496031182637562_116_00009890030911175934_116_00003338886116348349_015_00000816496580927726_0,
  116_00009023934097553371_116_00008799590021118496_017_00036939813933825083_116_00010620433114651238_116_00009575817287526558_116_00003338886116348349_015_00000816496580927726_0,
  116_00009523894433829583_116_00008799590021118496_016_00008491077303331875_116_00009717583293203229_116_00009261603663877183_116_00003338886116348349_015_00000816496580927726_0,
  116_00009023934097553371_116_00008799590021118496_116_00005119287836524469_016_00008439729782584461_116_00008947390040227806_116_00003338886116348349_015_00000816496580927726_0,
  116_00009023934097553371_116_00008125581165062826_017_00037497615783819194_118_00008718519775782523_115_00000863317641657843_016_00029950108064592316_115_00001224744871391589_0,
  116_00009023934097553371_116_00008125581165062826_016_00005925188793358959_116_00011824232876581913_115_00000784764235745499_116_00003338886116348349_115_00001224744871391589_0,
  116_00009023934097553371_116_00008125581165062826_117_00038363435815380104_016_00003323580794379088_116_00007376321921980926_016_00029950108064592316_115_00001224744871391589_0,
  116_00009023934097553371_116_00007451572309007539_116_00011310888371459118_016_00005028963790447548_116_00006590787862857486_116_00003338886116348349_015_00000816496580927726_0,
  116_00009023934097553371_116_00007451572309007539_115_00000696003394150504_016_00004326747262654651_115_00000627657423920811_116_00003338886116348349_115_00001224744871391589_0,
  116_00008523973761276875_115_00000677756345295187_016_00014682677838266525_116_00012526449404374806_116_00005805253803734046_116_00003338886116348349_115_00001224744871391589_0,
  116_00009023934097553371_116_00007451572309007539_016_00008044835823336586_116_00008313150237617443_116_00005333933368259982_116_00003338886116348349_015_00000816496580927726_0,
  116_00009023934097553371_115_00000677756345295187_116_00007183154681502685_016_00007637196607964014_116_00005019719744610606_116_00003338886116348349_115_00001224744871391589_0,
  116_00009023934097553371_116_00007451572309007539_017_00036939813933825083_116_00008012200297134773_117_00045483993091365416_116_00003338886116348349_015_00000816496580927726_0,
  116_00009023934097553371_116_00007451572309007539_016_00009495120633321278_116_00011924549523409467_117_00042341856854871657_116_00003338886116348349_015_00000816496580927726_0,
  116_00009023934097553371_116_00007451572309007539_116_00005286628391522703_015_00001315461218347961_115_00000391997206183779_116_00003338886116348349_015_00000816496580927726_0,
  116_00009023934097553371_116_00007451572309007539_116_00009581702636477369_016_00005028963790447548_117_00036057584381884134_116_00003338886116348349_015_00000816496580927726_0,
  116_00009023934097553371_115_00000677756345295187_116_00006736913201507395_017_00042264306158271003_117_00032915448145390375_116_00003338886116348349_015_00000816496580927726_0,
  116_00009023934097553371_115_00000677756345295187_116_00010362625226469127_016_00017869494584374754_117_00029773311908896616_116_00003338886116348349_015_00000816496580927726_0,
  116_00009023934097553371_115_00000677756345295187_016_00005813628423360135_116_00005905550713756088_117_00026631175672402857_116_00003338886116348349_015_00000816496580927726_0,
  116_00008523973761276875_114_00000061035545968962_116_00005677089686518582_116_00001993201487481394_117_00023489039435909095_116_00003338886116348349_015_00000816496580927726_0,
  116_00009523894433829583_115_00000677756345295187_116_00005677089686518582_117_00037989011303774045_117_00020346903199415334_116_00003338886116348349_015_00000816496580927726_0,
  116_00009023934097553371_115_00000677756345295187_116_00007015814126504452_015_00000793814654844668_117_00017204766962921575_116_00003338886116348349_115_00001224744871391589_0,
  116_00009023934097553371_115_00000677756345295187_117_00008242135915698029_117_00008897183723782728_117_00012491562608180934_016_00029950108064592316_115_00001224744871391589_0,
  116_00009523894433829583_116_00007451572309007539_116_00003334321916543309_016_00003423897441206646_118_00046362220169465326_116_00003338886116348349_115_00001224744871391589_0,
  116_00009523894433829583_116_00007451572309007539_116_00012593832626445576_016_00010646696012790704_019_00007698233779410749_116_00003338886116348349_015_00000816496580927726_0,
  116_00009523894433829583_116_00007451572309007539_116_00011366668556458528_016_00010446062719135587_017_00003219118574287868_116_00003338886116348349_115_00001224744871391589_0]

/-- lr/data.csv 9302-9401 -/
def dataCsv93 : List ℕ := [
  116_00009523894433829583_116_00007451572309007539_116_00009581702636477369_016_00001919147738793301_017_00007932322929028508_116_00003338886116348349_015_00000816496580927726_0,
  116_00009523894433829583_116_00007451572309007539_117_00044499256165315343_015_00001034574607230803_017_00011074459165522269_116_00003338886116348349_115_00001224744871391589_0,
  116_00009523894433829583_116_00007451572309007539_016_00014794238208265347_116_00014934048928236157_016_00001578766352026291_116_00003338886116348349_115_00001224744871391589_0,
  116_00009023934097553371_115_00000677756345295187_116_00002664959696550374_117_00016922515469987276_016_00002050086787500355_116_00003338886116348349_015_00000816496580927726_0,
  116_00008523973761276875_114_00000061035545968962_118_00009907118657745668_016_00003022630853896422_016_00002364300411149731_116_00003338886116348349_015_00000816496580927726_0,
  116_00008523973761276875_114_00000061035545968962_015_00000598096897835837_116_00009817899940030786_016_00002678514034799107_016_00029950108064592316_115_00001224744871391589_0,
  116_00008523973761276875_116_00005429545740840913_015_00001362285432327771_116_00011723916229754356_016_00003464048093922547_116_00003338886116348349_115_00001224744871391589_0,
  116_00008523973761276875_114_00000061035545968962_116_00008019857456493854_016_00009844162838170248_016_00003935368529396611_116_00003338886116348349_015_00000816496580927726_0,
  116_00008024013425000663_114_00000061035545968962_116_00006458012276510339_016_00008038463195274238_016_00004249582153045987_116_00003338886116348349_015_00000816496580927726_0,
  116_00008523973761276875_116_00005429545740840913_017_00012954334384078245_117_00023944680747916175_016_00004563795776695363_116_00003338886116348349_015_00000816496580927726_0,
  116_00008024013425000663_117_00047555368847852436_017_00005702910334154783_017_00008156646236901802_017_00048780094003447394_116_00003338886116348349_015_00000816496580927726_0,
  116_00008024013425000663_116_00004081528028729957_019_00068269368420777075_016_00003223264147551537_016_00005192223023994115_116_00003338886116348349_015_00000816496580927726_0,
  116_00007524053088724167_116_00004081528028729957_017_00019090154734013484_115_00000640713394789387_016_00005506436647643491_016_00029950108064592316_115_00001224744871391589_0,
  116_00007524053088724167_116_00004081528028729957_116_00006736913201507395_016_00005129280437275106_016_00006291970706766932_116_00003338886116348349_015_00000816496580927726_0,
  116_00007524053088724167_116_00004081528028729957_017_00014627739934060582_116_00006306817301066312_016_00006606184330416307_116_00003338886116348349_115_00001224744871391589_0,
  116_00007524053088724167_116_00003407519172674287_017_00016858947334037033_017_00010162979173452956_016_00007077504765890371_116_00003338886116348349_015_00000816496580927726_0,
  116_00007524053088724167_116_00004081528028729957_116_00006792693386506806_017_00012169312110004112_016_00007391718389539748_016_00029950108064592316_115_00001224744871391589_0,
  116_00007524053088724167_116_00003407519172674287_116_00003278541731543898_116_00001892884840653836_016_00008177252448663187_116_00003338886116348349_015_00000816496580927726_0,
  116_00007524053088724167_116_00004081528028729957_116_00009749043191475603_017_00045273805563097663_016_00008491466072312563_116_00003338886116348349_015_00000816496580927726_0,
  116_00007524053088724167_116_00004081528028729957_015_00002076271800320235_116_00018545448214028186_015_00000880567969596194_116_00003338886116348349_015_00000816496580927726_0,
  116_00008024013425000663_117_00047555368847852436_116_00007238934866502097_015_00000312294750072398_016_00009119893319611315_116_00003338886116348349_015_00000816496580927726_0,
  116_00008024013425000663_116_00005429545740840913_116_00011366668556458528_016_00013555878770789835_016_00009434106943260692_116_00003338886116348349_015_00000816496580927726_0,
  116_00007524053088724167_117_00047555368847852436_116_00001493575811562738_116_00001892884840653836_016_00009748320566910068_116_00003338886116348349_115_00001224744871391589_0,
  116_00007024092752447672_116_00004081528028729957_116_00005119287836524469_018_00021376474272484798_016_00010219641002384132_116_00003338886116348349_015_00000816496580927726_0,
  116_00007024092752447672_117_00047555368847852436_118_00009907118657745668_117_00023944680747916175_016_00010533854626033508_116_00003338886116348349_015_00000816496580927726_0,
  116_00007024092752447672_117_00047555368847852436_117_00016051361815615603_017_00008156646236901802_016_00010848068249682883_116_00003338886116348349_115_00001224744871391589_0,
  116_00007024092752447672_117_00047555368847852436_016_00007710154713340118_116_00008814733471755224_016_00011319388685156948_116_00003338886116348349_015_00000816496580927726_0,
  116_00007524053088724167_116_00005429545740840913_117_00019398172915580278_116_00006306817301066312_016_00011633602308806323_116_00003338886116348349_015_00000816496580927726_0,
  116_00007524053088724167_114_00000061035545968962_016_00028571943903119927_116_00021053364384717095_014_00000119478159324557_016_00029950108064592316_115_00001224744871391589_0,
  116_00007524053088724167_114_00000061035545968962_117_00036132228415403655_017_00013172478578279617_015_00001273334999157914_116_00003338886116348349_015_00000816496580927726_0,
  116_00008024013425000663_115_00000677756345295187_116_00001772476736559794_117_00038992177772049624_016_00013047563615228517_116_00003338886116348349_115_00001224744871391589_0,
  116_00008024013425000663_116_00007451572309007539_116_00002386058771553318_117_00020935181343089515_015_00001351888405070258_116_00003338886116348349_015_00000816496580927726_0,
  116_00007524053088724167_115_00000677756345295187_016_00021320519853196465_116_00018043864979890403_016_00013833097674351955_116_00003338886116348349_115_00001224744871391589_0,
  116_00007524053088724167_115_00000677756345295187_117_00049519472815262355_017_00005147146832075141_015_00001430441810982602_116_00003338886116348349_015_00000816496580927726_0,
  116_00008024013425000663_116_00007451572309007539_116_00007629396161497976_016_00004828330496792433_016_00014618631733475396_116_00003338886116348349_015_00000816496580927726_0,
  116_00008024013425000663_116_00007451572309007539_117_00021071578465562615_016_00010044796131825364_016_00014932845357124773_116_00003338886116348349_015_00000816496580927726_0,
  116_00007524053088724167_116_00007451572309007539_016_00010387603593311858_115_00000811251694396233_016_00015247058980774149_116_00003338886116348349_015_00000816496580927726_0,
  116_00007524053088724167_116_00007451572309007539_116_00002162938031555673_017_00003140813895523986_016_00015561272604423524_016_00029950108064592316_115_00001224744871391589_0,
  116_00007524053088724167_115_00000677756345295187_117_00004337522965739242_116_00009216000059065448_016_00016346806663546964_016_00029950108064592316_115_00001224744871391589_0,
  116_00007524053088724167_115_00000677756345295187_117_00045057058015309454_016_00004828330496792433_016_00017132340722670405_116_00003338886116348349_015_00000816496580927726_0,
  116_00008024013425000663_116_00007451572309007539_017_00021321362133989932_117_00028960513089293993_116_00016959837443286896_016_00029950108064592316_115_00001224744871391589_0,
  116_00008523973761276875_116_00007451572309007539_116_00009804823376475014_016_00006132446905550669_116_00016174303384163455_116_00003338886116348349_115_00001224744871391589_0,
  116_00008523973761276875_116_00007451572309007539_016_00009327780078323045_116_00008212833590789884_115_00001570298294868939_016_00029950108064592316_115_00001224744871391589_0,
  116_00008523973761276875_116_00008125581165062826_116_00008242978196491499_016_00010446062719135587_115_00001491744888956595_116_00003338886116348349_115_00001224744871391589_0,
  116_00009023934097553371_116_00008125581165062826_016_00004307563428376032_116_00006306817301066312_116_00014446128454091887_116_00003338886116348349_015_00000816496580927726_0,
  116_00009023934097553371_116_00008125581165062826_116_00005398188761521525_016_00007035296726998674_116_00014131914830442511_116_00003338886116348349_015_00000816496580927726_0,
  116_00009023934097553371_116_00008125581165062826_017_00048653652783701445_017_00004143980363799563_116_00013817701206793134_116_00003338886116348349_115_00001224744871391589_0,
  116_00009023934097553371_116_00008799590021118496_116_00006290671721512106_016_00002621364266586198_115_00001334638077131907_116_00003338886116348349_115_00001224744871391589_0,
  116_00009023934097553371_116_00008799590021118496_116_00005732869871517993_016_00009141946310377358_116_00012875060335845006_116_00003338886116348349_015_00000816496580927726_0,
  116_00009023934097553371_116_00008799590021118496_016_00003359300283386041_117_00037989011303774045_115_00001256084671219563_116_00003338886116348349_115_00001224744871391589_0,
  116_00009023934097553371_116_00008799590021118496_016_00036102268878040444_115_00002225716414664777_116_00012089526276721567_116_00003338886116348349_015_00000816496580927726_0,
  116_00008523973761276875_116_00008125581165062826_016_00005925188793358959_116_00009617266646375675_115_00001177531265307219_116_00003338886116348349_015_00000816496580927726_0,
  116_00009023934097553371_116_00008799590021118496_016_00013455513768279477_116_00012125182817064584_116_00011461099029422814_116_00003338886116348349_015_00000816496580927726_0,
  116_00009023934097553371_116_00008125581165062826_116_00010808866706464417_016_00004326747262654651_115_00001114688540577344_116_00003338886116348349_015_00000816496580927726_0,
  116_00009023934097553371_116_00008125581165062826_016_00003805541763381331_115_00000811251694396233_116_00010832671782124061_116_00003338886116348349_115_00001224744871391589_0,
  116_00008523973761276875_116_00007451572309007539_016_00009439340448321867_116_00012024866170237025_116_00010361351346649998_116_00003338886116348349_015_00000816496580927726_0,
  116_00008523973761276875_116_00007451572309007539_115_00001499238058142026_016_00012753345596169388_116_00010047137723000623_116_00003338886116348349_015_00000816496580927726_0,
  116_00008523973761276875_116_00007451572309007539_015_00000598096897835837_115_00001463309898775349_116_00009732924099351247_116_00003338886116348349_115_00001224744871391589_0,
  116_00009023934097553371_116_00008799590021118496_116_00007350495236500919_016_00005129280437275106_116_00009261603663877183_116_00003338886116348349_015_00000816496580927726_0,
  116_00009523894433829583_116_00008799590021118496_017_00023552569533966383_016_00007436563314308898_116_00008947390040227806_116_00003338886116348349_115_00001224744871391589_0,
  116_00010023854770106078_116_00009473598877173782_117_00003779721115745129_016_00002621364266586198_116_00008476069604753742_116_00003338886116348349_015_00000816496580927726_0,
  116_00010023854770106078_116_00009473598877173782_016_00003972882318379565_116_00006908717182031652_116_00008161855981104366_116_00003338886116348349_015_00000816496580927726_0,
  116_00010023854770106078_116_00010147607733229451_016_00007989055638337175_116_00007009033828859209_115_00000784764235745499_116_00003338886116348349_115_00001224744871391589_0,
  116_00010523815106382575_116_00010147607733229451_117_00011031145165668592_115_00000570491742010098_116_00007376321921980926_116_00003338886116348349_015_00000816496580927726_0,
  116_00010523815106382575_116_00010147607733229451_016_00008044835823336586_116_00011523282936099244_115_00000706210829833155_116_00003338886116348349_015_00000816496580927726_0,
  116_00010023854770106078_116_00009473598877173782_115_00001588486354141084_016_00015863161647823627_116_00006747894674682174_116_00003338886116348349_115_00001224744871391589_0,
  116_00010023854770106078_116_00010147607733229451_117_00043383652465327116_016_00008038463195274238_115_00000627657423920811_116_00003338886116348349_015_00000816496580927726_0,
  116_00010523815106382575_116_00010147607733229451_117_00037247832115391877_016_00005129280437275106_116_00005962360615558734_116_00003338886116348349_015_00000816496580927726_0,
  116_00011523735778935282_116_00010821616589285121_117_00016051361815615603_117_00013913016065160544_116_00005648146991909357_116_00003338886116348349_015_00000816496580927726_0,
  116_00011523735778935282_115_00001149562544534041_017_00004587306634166558_117_00031970012494120725_116_00005333933368259982_116_00003338886116348349_115_00001224744871391589_0,
  116_00011523735778935282_116_00010821616589285121_116_00006736913201507395_016_00011950812421548933_117_00048626129327859174_016_00029950108064592316_115_00001224744871391589_0,
  116_00011523735778935282_116_00010821616589285121_116_00013932557066431446_016_00011348912540583593_117_00040770788736624775_116_00003338886116348349_015_00000816496580927726_0,
  116_00011523735778935282_116_00010821616589285121_116_00002888080436548019_017_00014175645046555194_117_00037628652500131016_116_00003338886116348349_015_00000816496580927726_0,
  116_00011523735778935282_116_00010147607733229451_116_00004784606726528002_016_00005530547024585329_117_00034486516263637257_116_00003338886116348349_015_00000816496580927726_0,
  116_00011023775442658785_116_00010147607733229451_116_00004059464321535655_016_00004728013849964882_115_00000313443800271435_116_00003338886116348349_115_00001224744871391589_0,
  116_00011523735778935282_116_00010821616589285121_116_00013988337251430858_016_00009543212897687582_117_00026631175672402857_016_00029950108064592316_115_00001224744871391589_0,
  116_00011523735778935282_116_00010821616589285121_016_00011112745998304205_116_00012325816110719694_117_00018775835081168454_016_00029950108064592316_115_00001224744871391589_0,
  116_00011523735778935282_115_00001149562544534041_116_00002832300251548608_017_00010162979173452956_117_00010920494489934053_016_00029950108064592316_115_00001224744871391589_0,
  116_00012023696115211493_115_00001149562544534041_016_00015463600428258282_116_00011222332995616573_117_00003065153898699653_116_00003338886116348349_015_00000816496580927726_0,
  115_00001252365645148799_115_00001216963430139608_116_00006681133016507984_016_00008540046429412019_019_00007698233779410749_116_00003338886116348349_015_00000816496580927726_0,
  116_00013023616787764485_116_00012843643157451365_116_00005788650056517404_016_00005731180318240445_017_00003219118574287868_116_00003338886116348349_015_00000816496580927726_0,
  115_00001252365645148799_116_00012843643157451365_116_00003278541731543898_017_00024207309729310825_017_00006361254810781627_116_00003338886116348349_115_00001224744871391589_0,
  115_00001252365645148799_115_00001216963430139608_016_00003972882318379565_115_00000640713394789387_017_00011074459165522269_116_00003338886116348349_015_00000816496580927726_0,
  115_00001252365645148799_116_00012843643157451365_017_00005145108484160671_117_00017925681938262783_016_00001421659540201603_016_00029950108064592316_115_00001224744871391589_0,
  116_00012023696115211493_116_00012843643157451365_116_00008912340416484434_015_00001746822799706453_016_00002207193599325043_116_00003338886116348349_115_00001224744871391589_0,
  115_00001252365645148799_116_00012843643157451365_016_00020539597263204707_115_00001653911527747706_016_00002678514034799107_116_00003338886116348349_115_00001224744871391589_0,
  115_00001252365645148799_116_00013517652013507035_015_00002756790057313052_115_00002336064726175089_016_00003149834470273171_116_00003338886116348349_115_00001224744871391589_0,
  116_00013023616787764485_116_00014191660869562706_115_00000829875838149091_015_00001205112906837649_017_00036211549057472353_016_00029950108064592316_115_00001224744871391589_0,
  115_00001252365645148799_116_00014191660869562706_018_00029139010841842207_117_00020935181343089515_017_00044066889648706753_116_00003338886116348349_115_00001224744871391589_0,
  116_00012023696115211493_116_00013517652013507035_116_00015661742801413194_015_00001746822799706453_017_00048780094003447394_116_00003338886116348349_015_00000816496580927726_0,
  115_00001252365645148799_116_00013517652013507035_017_00011838730684090021_117_00009900350192058306_016_00005192223023994115_116_00003338886116348349_115_00001224744871391589_0,
  116_00012023696115211493_115_00001216963430139608_015_00002968754760310815_116_00021554947618854876_016_00005663543459468179_016_00029950108064592316_115_00001224744871391589_0,
  116_00012023696115211493_116_00012843643157451365_116_00005677089686518582_016_00006333080199205777_016_00006449077518591619_116_00003338886116348349_015_00000816496580927726_0,
  116_00011523735778935282_115_00001216963430139608_116_00002776520066549197_016_00003022630853896422_016_00006763291142240996_016_00029950108064592316_115_00001224744871391589_0,
  116_00011523735778935282_115_00001216963430139608_115_00001142244874145794_016_00013054295536652054_016_00007548825201364435_116_00003338886116348349_015_00000816496580927726_0,
  116_00011523735778935282_115_00001216963430139608_116_00002162938031555673_118_00008718519775782523_016_00007863038825013812_116_00003338886116348349_015_00000816496580927726_0,
  116_00011023775442658785_115_00001149562544534041_117_00022744984015544953_016_00007336246667481341_016_00008177252448663187_116_00003338886116348349_015_00000816496580927726_0,
  116_00011523735778935282_115_00001216963430139608_116_00009414362081479135_016_00013455562123962277_016_00008491466072312563_116_00003338886116348349_115_00001224744871391589_0,
  116_00011523735778935282_115_00001216963430139608_117_00007126532215709803_018_00011344809589729025_016_00008962786507786628_016_00029950108064592316_115_00001224744871391589_0,
  116_00011023775442658785_115_00001149562544534041_116_00003445882286542132_016_00004828330496792433_016_00009748320566910068_116_00003338886116348349_015_00000816496580927726_0]

/-- lr/data.csv 9402-9501 -/
def dataCsv94 : List ℕ := [
  116_00011523735778935282_115_00001216963430139608_116_00005175068021523881_016_00003925480675344427_016_00010062534190559445_116_00003338886116348349_015_00000816496580927726_0,
  116_00011523735778935282_115_00001216963430139608_016_00010108702668314802_116_00014432465694098375_015_00001037674781420882_116_00003338886116348349_115_00001224744871391589_0,
  116_00011523735778935282_116_00012843643157451365_015_00001088962525830656_116_00009316316705893005_016_00010848068249682883_116_00003338886116348349_015_00000816496580927726_0,
  116_00011523735778935282_116_00012843643157451365_016_00008825758413328343_116_00010921383055133904_015_00001116228187333226_116_00003338886116348349_015_00000816496580927726_0,
  116_00011523735778935282_115_00001216963430139608_015_00002611761576314583_115_00002075241444423442_016_00011476495496981636_116_00003338886116348349_015_00000816496580927726_0,
  116_00011523735778935282_116_00012843643157451365_117_00038921237665374214_016_00008840996369894685_015_00001179070912063101_116_00003338886116348349_115_00001224744871391589_0,
  116_00011523735778935282_116_00012843643157451365_015_00003626960943303868_116_00024464130376854007_016_00012262029556105076_116_00003338886116348349_115_00001224744871391589_0,
  116_00011023775442658785_115_00001149562544534041_116_00005788650056517404_015_00001014511277865292_015_00001273334999157914_116_00003338886116348349_015_00000816496580927726_0,
  116_00010523815106382575_116_00010821616589285121_016_00005478947313363668_116_00005504284126445864_016_00013047563615228517_016_00029950108064592316_115_00001224744871391589_0,
  116_00010023854770106078_116_00010147607733229451_016_00006985012308347772_116_00011723916229754356_016_00013833097674351955_116_00003338886116348349_015_00000816496580927726_0,
  116_00010023854770106078_116_00010147607733229451_016_00007096572678346594_116_00009015366765410335_016_00014147311298001333_116_00003338886116348349_115_00001224744871391589_0,
  116_00010023854770106078_116_00010147607733229451_116_00007517835791499152_015_00000663403013968845_016_00014618631733475396_116_00003338886116348349_015_00000816496580927726_0,
  116_00010023854770106078_116_00010147607733229451_016_00009104659338325399_116_00013328982578995259_016_00014932845357124773_116_00003338886116348349_015_00000816496580927726_0,
  116_00009523894433829583_116_00009473598877173782_115_00000556552931651976_015_00000492864714361999_016_00015247058980774149_116_00003338886116348349_015_00000816496580927726_0,
  116_00009523894433829583_116_00009473598877173782_116_00010306845041469714_016_00013957145358100058_016_00015561272604423524_116_00003338886116348349_015_00000816496580927726_1,
  116_00009023934097553371_116_00008799590021118496_116_00009916383746473837_017_00042264306158271003_116_00016959837443286896_116_00003338886116348349_115_00001224744871391589_0,
  116_00009523894433829583_116_00010147607733229451_116_00004226804876533889_016_00005931813611895553_115_00001648851700781283_116_00003338886116348349_115_00001224744871391589_0,
  116_00009523894433829583_116_00010821616589285121_117_00013262352565645041_015_00000382516402851687_116_00016017196572338768_016_00029950108064592316_115_00001224744871391589_0,
  116_00010023854770106078_116_00010821616589285121_116_00005955990611515638_016_00006232763552378227_116_00015231662513215327_116_00003338886116348349_015_00000816496580927726_0,
  116_00010023854770106078_116_00010821616589285121_015_00002076271800320235_116_00018043864979890403_115_00001491744888956595_116_00003338886116348349_015_00000816496580927726_0,
  116_00010023854770106078_116_00010821616589285121_117_00037247832115391877_017_00020194643856208588_116_00014603235265916574_116_00003338886116348349_015_00000816496580927726_0,
  116_00009523894433829583_116_00010147607733229451_114_00000087449998614862_016_00014559045239065398_114_00000142890216422672_116_00003338886116348349_115_00001224744871391589_0,
  116_00009523894433829583_116_00010147607733229451_016_00007040792493347183_116_00010419799820996123_116_00013817701206793134_116_00003338886116348349_015_00000816496580927726_0,
  116_00009523894433829583_116_00010147607733229451_016_00007654374528340707_116_00009516949999548118_116_00013503487583143758_116_00003338886116348349_015_00000816496580927726_0,
  116_00010023854770106078_116_00010147607733229451_016_00002578377693394283_116_00007009033828859209_116_00013189273959494383_116_00003338886116348349_115_00001224744871391589_0,
  116_00009523894433829583_116_00009473598877173782_115_00000690425375650563_016_00006333080199205777_116_00012717953524020318_116_00003338886116348349_115_00001224744871391589_0,
  116_00009523894433829583_116_00008799590021118496_116_00011031987446462062_016_00015762845000996077_116_00012246633088546255_116_00003338886116348349_015_00000816496580927726_0,
  116_00009023934097553371_116_00008125581165062826_019_00068269368420777075_116_00005203334185963199_116_00011932419464896877_116_00003338886116348349_015_00000816496580927726_0,
  116_00009023934097553371_116_00008125581165062826_016_00016634984313245917_114_00000116235995829268_116_00011618205841247502_016_00029950108064592316_115_00001224744871391589_0,
  116_00009023934097553371_116_00008125581165062826_117_00022744984015544953_115_00000399953442403252_116_00010832671782124061_116_00003338886116348349_015_00000816496580927726_0,
  116_00009523894433829583_116_00008799590021118496_016_00007375473603343651_116_00011222332995616573_116_00010518458158474686_116_00003338886116348349_015_00000816496580927726_0,
  116_00010023854770106078_116_00009473598877173782_115_00000606755098151446_016_00017066961409754307_115_00001020424453482531_116_00003338886116348349_015_00000816496580927726_0,
  116_00010023854770106078_116_00008799590021118496_016_00004474903983374266_018_00011344809589729025_116_00009890030911175934_116_00003338886116348349_015_00000816496580927726_0,
  116_00010023854770106078_116_00008799590021118496_115_00000606755098151446_016_00011950812421548933_116_00009575817287526558_116_00003338886116348349_115_00001224744871391589_0,
  116_00010023854770106078_116_00009473598877173782_017_00048653652783701445_116_00006708083888376544_116_00009104496852052494_116_00003338886116348349_015_00000816496580927726_0,
  116_00010023854770106078_116_00008799590021118496_116_00005342408576522114_016_00009342579604032467_116_00008790283228403118_116_00003338886116348349_015_00000816496580927726_0,
  116_00010023854770106078_116_00009473598877173782_117_00032227615465444864_015_00000252104761975864_116_00008476069604753742_116_00003338886116348349_015_00000816496580927726_0,
  116_00009523894433829583_116_00008799590021118496_117_00006568730365715691_016_00003022630853896422_116_00008161855981104366_116_00003338886116348349_115_00001224744871391589_0,
  116_00009523894433829583_116_00008799590021118496_116_00012482272256446754_015_00001686632811609919_116_00007690535545630302_116_00003338886116348349_115_00001224744871391589_0,
  116_00009523894433829583_116_00008125581165062826_116_00005900210426516227_016_00008239096488929353_116_00007219215110156237_116_00003338886116348349_115_00001224744871391589_0,
  116_00009523894433829583_116_00008125581165062826_116_00008968120601483845_016_00013555878770789835_116_00006747894674682174_116_00003338886116348349_115_00001224744871391589_0,
  116_00009523894433829583_116_00008125581165062826_116_00005955990611515638_016_00003423897441206646_115_00000627657423920811_116_00003338886116348349_015_00000816496580927726_0,
  116_00009523894433829583_116_00008125581165062826_116_00008075637641493265_015_00000793814654844668_116_00005962360615558734_116_00003338886116348349_115_00001224744871391589_0,
  116_00010023854770106078_116_00008125581165062826_116_00007127374496503274_016_00013856828711272502_115_00000549104018008467_016_00029950108064592316_115_00001224744871391589_0,
  116_00009523894433829583_116_00007451572309007539_015_00003331325962806988_115_00002416318043637134_115_00000470550612096123_116_00003338886116348349_015_00000816496580927726_0,
  116_00009023934097553371_115_00000677756345295187_116_00005175068021523881_016_00005831496965067996_116_00004391292497311854_116_00003338886116348349_115_00001224744871391589_0,
  116_00009523894433829583_116_00007451572309007539_116_00008410318751489733_016_00013555878770789835_115_00000391997206183779_016_00029950108064592316_115_00001224744871391589_0,
  116_00009523894433829583_116_00007451572309007539_116_00012036030776451463_016_00011750179127893825_115_00000313443800271435_116_00003338886116348349_115_00001224744871391589_0,
  116_00009023934097553371_115_00000677756345295187_016_00013455513768279477_116_00010720749761478792_117_00026631175672402857_116_00003338886116348349_015_00000816496580927726_0,
  116_00009523894433829583_116_00008125581165062826_116_00005844430241516816_017_00018188310919657433_117_00023489039435909095_116_00003338886116348349_115_00001224744871391589_0,
  116_00010023854770106078_116_00008799590021118496_117_00024976191415521404_016_00002621364266586198_117_00018775835081168454_116_00003338886116348349_115_00001224744871391589_0,
  116_00010023854770106078_116_00008799590021118496_118_00015485137157686792_117_00003881351382404913_117_00014062630726427813_016_00029950108064592316_115_00001224744871391589_0,
  116_00010023854770106078_116_00008799590021118496_116_00008187198011492087_016_00013455562123962277_118_00062072901351934134_116_00003338886116348349_115_00001224744871391589_0,
  116_00009023934097553371_115_00000677756345295187_116_00009972163931473248_015_00001686632811609919_118_00014940857804527726_016_00029950108064592316_115_00001224744871391589_0,
  116_00008024013425000663_116_00005429545740840913_017_00024668173233954607_117_00046014343049978595_017_00006361254810781627_116_00003338886116348349_015_00000816496580927726_0,
  116_00007524053088724167_116_00005429545740840913_015_00002477889132315996_116_00019849564622786418_017_00009503391047275388_116_00003338886116348349_015_00000816496580927726_0,
  116_00007524053088724167_117_00047555368847852436_016_00005088486018367789_116_00006708083888376544_017_00012645527283769148_116_00003338886116348349_015_00000816496580927726_0,
  116_00007524053088724167_117_00047555368847852436_016_00008546857488331286_116_00013328982578995259_016_00001578766352026291_116_00003338886116348349_115_00001224744871391589_0,
  116_00008024013425000663_114_00000061035545968962_116_00006792693386506806_017_00006150313300350718_016_00002050086787500355_116_00003338886116348349_015_00000816496580927726_0,
  116_00008024013425000663_114_00000061035545968962_016_00002243696583397816_117_00038992177772049624_016_00002364300411149731_116_00003338886116348349_015_00000816496580927726_0,
  116_00008024013425000663_116_00005429545740840913_116_00007796736716496209_016_00005229597084102664_016_00002678514034799107_116_00003338886116348349_115_00001224744871391589_0,
  116_00008024013425000663_116_00005429545740840913_115_00000696003394150504_016_00006433396846033335_016_00003149834470273171_116_00003338886116348349_115_00001224744871391589_0,
  116_00007524053088724167_117_00047555368847852436_017_00017416749184031147_018_00011344809589729025_017_00036211549057472353_116_00003338886116348349_015_00000816496580927726_0,
  116_00007524053088724167_117_00047555368847852436_016_00000737631588413712_117_00031970012494120725_016_00003935368529396611_116_00003338886116348349_115_00001224744871391589_0,
  116_00007024092752447672_116_00004081528028729957_116_00005509749131520348_016_00008239096488929353_017_00044066889648706753_116_00003338886116348349_015_00000816496580927726_0,
  116_00007024092752447672_116_00004081528028729957_117_00043941454315321227_015_00000382516402851687_016_00004720902588520051_116_00003338886116348349_115_00001224744871391589_0,
  116_00007024092752447672_116_00004081528028729957_117_00037805633965385993_016_00008038463195274238_016_00005192223023994115_116_00003338886116348349_015_00000816496580927726_0,
  116_00007024092752447672_117_00047555368847852436_016_00009104659338325399_116_00012426132757547248_016_00005506436647643491_116_00003338886116348349_015_00000816496580927726_0,
  116_00007024092752447672_116_00004081528028729957_116_00009135461156482079_016_00015461895060513404_016_00005820650271292868_116_00003338886116348349_015_00000816496580927726_0,
  116_00007024092752447672_116_00004081528028729957_016_00008881538598327754_116_00006808400535204094_016_00006134863894942243_116_00003338886116348349_015_00000816496580927726_0,
  116_00007024092752447672_116_00004081528028729957_115_00000556552931651976_016_00007135613373826232_016_00006449077518591619_016_00029950108064592316_115_00001224744871391589_0,
  116_00007024092752447672_116_00004081528028729957_015_00001312083265828301_116_00012526449404374806_015_00000723461157771506_116_00003338886116348349_115_00001224744871391589_0,
  115_00000652413241617146_116_00004081528028729957_116_00009135461156482079_016_00008339413135756903_016_00007705932013189124_116_00003338886116348349_115_00001224744871391589_0,
  115_00000652413241617146_116_00003407519172674287_116_00005175068021523881_019_00013131449069732513_016_00008177252448663187_116_00003338886116348349_015_00000816496580927726_0,
  115_00000652413241617146_117_00027335103166186175_116_00004673046356529179_016_00006834663433343559_016_00008491466072312563_116_00003338886116348349_115_00001224744871391589_0,
  116_00006024172079894964_117_00027335103166186175_117_00008799937765692141_016_00001919147738793301_016_00008962786507786628_116_00003338886116348349_015_00000816496580927726_0,
  116_00006024172079894964_117_00027335103166186175_016_00008546857488331286_115_00000811251694396233_016_00009277000131436004_116_00003338886116348349_115_00001224744871391589_0,
  116_00006024172079894964_117_00027335103166186175_016_00008602637673330699_116_00006708083888376544_016_00009748320566910068_116_00003338886116348349_115_00001224744871391589_0,
  116_00006024172079894964_117_00027335103166186175_016_00019591334118214714_116_00016037532043339278_016_00010219641002384132_116_00003338886116348349_015_00000816496580927726_0,
  116_00005524211743618752_117_00027335103166186175_016_00003415080468385452_116_00006507450594721428_016_00010533854626033508_016_00029950108064592316_115_00001224744871391589_0,
  116_00005524211743618752_117_00027335103166186175_116_00005844430241516816_015_00000382516402851687_016_00011319388685156948_116_00003338886116348349_115_00001224744871391589_0,
  116_00005524211743618752_117_00027335103166186175_116_00009693263006476192_016_00010947645953273368_015_00001179070912063101_116_00003338886116348349_015_00000816496580927726_0,
  116_00006024172079894964_117_00027335103166186175_116_00012816953366443222_015_00001746822799706453_016_00012104922744280389_016_00029950108064592316_115_00001224744871391589_0,
  116_00005524211743618752_117_00027335103166186175_018_00040295047841724455_116_00004701750951825417_016_00012890456803403827_016_00029950108064592316_115_00001224744871391589_0,
  116_00005524211743618752_117_00027335103166186175_016_00006929232123348361_116_00006306817301066312_016_00013675990862527267_116_00003338886116348349_015_00000816496580927726_0,
  116_00005524211743618752_117_00027335103166186175_017_00028014984333919285_116_00005805234066928531_016_00013990204486176645_116_00003338886116348349_015_00000816496580927726_0,
  116_00005524211743618752_117_00027335103166186175_117_00037247832115391877_016_00006032130258723112_015_00001430441810982602_116_00003338886116348349_115_00001224744871391589_0,
  116_00005524211743618752_117_00027335103166186175_017_00024668173233954607_118_00018750184458538297_016_00014775738545300083_116_00003338886116348349_015_00000816496580927726_0,
  116_00005524211743618752_117_00027335103166186175_016_00001574334363404881_116_00005504284126445864_015_00001508995216894946_116_00003338886116348349_115_00001224744871391589_0,
  116_00005524211743618752_117_00020595014605633308_116_00007350495236500919_016_00001919147738793301_016_00015561272604423524_116_00003338886116348349_015_00000816496580927726_0,
  116_00005024251407342256_117_00020595014605633308_116_00006736913201507395_016_00004728013849964882_014_00000158754862280729_116_00003338886116348349_115_00001224744871391589_0,
  116_00005024251407342256_117_00020595014605633308_116_00002776520066549197_017_00007153479768626296_016_00016346806663546964_116_00003338886116348349_115_00001224744871391589_0,
  115_00000452429107106576_117_00007114837484523745_016_00002634157878393695_117_00033976345430671806_016_00016818127099021027_116_00003338886116348349_015_00000816496580927726_0,
  115_00000452429107106576_116_00001385492604507661_115_00000785251690149562_016_00015461895060513404_016_00017132340722670405_116_00003338886116348349_015_00000816496580927726_1,
  117_00040243307347895485_117_00007114837484523745_117_00012704550715650928_017_00014175645046555194_015_00001744655434631978_116_00003338886116348349_015_00000816496580927726_0,
  117_00035243703985130526_118_00003747489239670474_116_00009247021526480902_016_00004828330496792433_016_00017760767969969156_016_00029950108064592316_115_00001224744871391589_0,
  117_00040243307347895485_118_00003747489239670474_115_00001058574596646677_016_00010446062719135587_016_00018546302029092596_116_00003338886116348349_115_00001224744871391589_0,
  115_00000452429107106576_117_00007114837484523745_116_00005342408576522114_017_00003140813895523986_116_00016959837443286896_016_00029950108064592316_115_00001224744871391589_0,
  117_00040243307347895485_016_00000636533963658965_018_00017982973841959956_117_00038992177772049624_116_00016174303384163455_016_00029950108064592316_115_00001224744871391589_0,
  117_00040243307347895485_016_00000636533963658965_117_00002664117415756904_117_00022941514279640599_116_00015388769325040015_116_00003338886116348349_015_00000816496580927726_0]

/-- lr/data.csv 9502-9601 -/
def dataCsv95 : List ℕ := [
  117_00040243307347895485_017_00013105428197142516_016_00008825758413328343_116_00009416633352720559_115_00001507455570139064_116_00003338886116348349_015_00000816496580927726_0,
  117_00035243703985130526_017_00019845516757699214_116_00007964077271494443_016_00007436563314308898_116_00014760342077741262_116_00003338886116348349_015_00000816496580927726_0,
  117_00035243703985130526_017_00013105428197142516_116_00002441838956552729_016_00009242262957204916_116_00014446128454091887_116_00003338886116348349_015_00000816496580927726_0,
  117_00040243307347895485_017_00019845516757699214_017_00006818514034143008_016_00004828330496792433_116_00014131914830442511_116_00003338886116348349_115_00001224744871391589_0,
  117_00040243307347895485_017_00019845516757699214_116_00005509749131520348_016_00007035296726998674_116_00013660594394968446_116_00003338886116348349_015_00000816496580927726_0,
  117_00040243307347895485_017_00019845516757699214_116_00006123331166513871_018_00011344809589729025_115_00001334638077131907_116_00003338886116348349_015_00000816496580927726_0,
  117_00035243703985130526_016_00002658560531825208_017_00005145108484160671_016_00001618197798310635_116_00013032167147669695_016_00029950108064592316_115_00001224744871391589_0,
  117_00035243703985130526_017_00033325693878808776_117_00018840371065586167_116_00001190668312860946_116_00012246633088546255_116_00003338886116348349_015_00000816496580927726_0,
  117_00040243307347895485_016_00002658560531825208_016_00004028662503378976_117_00035982678367222964_116_00011932419464896877_116_00003338886116348349_015_00000816496580927726_0,
  117_00040243307347895485_016_00002658560531825208_117_00020513776615568505_118_00018750184458538297_116_00011618205841247502_116_00003338886116348349_115_00001224744871391589_0,
  117_00040243307347895485_016_00002658560531825208_117_00019398172915580278_016_00003323580794379088_115_00001114688540577344_116_00003338886116348349_115_00001224744871391589_0,
  115_00000452429107106576_017_00019845516757699214_116_00005007727466525647_017_00007153479768626296_116_00010675564970299374_116_00003338886116348349_015_00000816496580927726_0,
  116_00005024251407342256_017_00013105428197142516_017_00020205758434001708_117_00021938347811365091_116_00010361351346649998_116_00003338886116348349_015_00000816496580927726_0,
  116_00005024251407342256_017_00013105428197142516_015_00000330352009838663_116_00006607767241548985_116_00010047137723000623_116_00003338886116348349_115_00001224744871391589_0,
  116_00005024251407342256_016_00000636533963658965_116_00006848473571506217_016_00005931813611895553_116_00009575817287526558_116_00003338886116348349_015_00000816496580927726_0,
  116_00005024251407342256_017_00013105428197142516_016_00007989055638337175_116_00011222332995616573_116_00009261603663877183_116_00003338886116348349_015_00000816496580927726_0,
  116_00005524211743618752_016_00000636533963658965_116_00011031987446462062_016_00014559045239065398_116_00008947390040227806_116_00003338886116348349_015_00000816496580927726_0,
  116_00005524211743618752_016_00000636533963658965_117_00008799937765692141_117_00008897183723782728_115_00000863317641657843_116_00003338886116348349_015_00000816496580927726_0,
  116_00005024251407342256_016_00000636533963658965_016_00002299476768397227_016_00001919147738793301_116_00008318962792929054_116_00003338886116348349_015_00000816496580927726_0,
  116_00005024251407342256_016_00000636533963658965_117_00004337522965739242_115_00000399953442403252_116_00008004749169279678_116_00003338886116348349_015_00000816496580927726_0,
  116_00005024251407342256_016_00000636533963658965_116_00009135461156482079_016_00008941313016722243_116_00007690535545630302_116_00003338886116348349_015_00000816496580927726_0,
  116_00005524211743618752_016_00000636533963658965_117_00030554209915462527_017_00004143980363799563_116_00007376321921980926_116_00003338886116348349_115_00001224744871391589_0,
  116_00005024251407342256_017_00013105428197142516_016_00006594551013351894_116_00007711250356652106_116_00006905001486506862_116_00003338886116348349_115_00001224744871391589_0,
  116_00005024251407342256_017_00013105428197142516_117_00024976191415521404_017_00006150313300350718_116_00006433681051032798_116_00003338886116348349_015_00000816496580927726_0,
  116_00005024251407342256_017_00019845516757699214_016_00006650331198351305_116_00012426132757547248_116_00006119467427383422_016_00029950108064592316_115_00001224744871391589_0,
  115_00000452429107106576_017_00019845516757699214_116_00007127374496503274_017_00021197810324484165_116_00005333933368259982_116_00003338886116348349_015_00000816496580927726_0,
  117_00040243307347895485_016_00002658560531825208_116_00008019857456493854_016_00015461895060513404_116_00005019719744610606_116_00003338886116348349_115_00001224744871391589_0,
  115_00000452429107106576_016_00002658560531825208_017_00006260712184148895_016_00003925480675344427_117_00045483993091365416_116_00003338886116348349_015_00000816496580927726_0,
  115_00000452429107106576_017_00019845516757699214_116_00017056247426398476_016_00019073294346305432_117_00042341856854871657_116_00003338886116348349_115_00001224744871391589_0,
  115_00000452429107106576_017_00019845516757699214_117_00044499256165315343_016_00006734346786516008_117_00037628652500131016_116_00003338886116348349_015_00000816496580927726_0,
  115_00000452429107106576_016_00002658560531825208_116_00007462055606499741_016_00013656195417617392_117_00034486516263637257_016_00029950108064592316_115_00001224744871391589_0,
  117_00040243307347895485_017_00033325693878808776_117_00045057058015309454_016_00004126113968999543_117_00026631175672402857_116_00003338886116348349_015_00000816496580927726_0,
  117_00040243307347895485_017_00033325693878808776_116_00008633439491487378_016_00008740679723067134_117_00023489039435909095_116_00003338886116348349_015_00000816496580927726_0,
  117_00040243307347895485_017_00033325693878808776_016_00009271999893323634_116_00010520116467823681_117_00020346903199415334_116_00003338886116348349_015_00000816496580927726_0,
  117_00035243703985130526_017_00040065782439365477_116_00005342408576522114_016_00005731180318240445_117_00017204766962921575_116_00003338886116348349_015_00000816496580927726_0,
  117_00035243703985130526_017_00040065782439365477_016_00003917102133380153_116_00008614100178100111_117_00014062630726427813_116_00003338886116348349_115_00001224744871391589_0,
  117_00035243703985130526_017_00033325693878808776_016_00015575160798257104_115_00001403119910678815_117_00009349426371687174_116_00003338886116348349_015_00000816496580927726_0,
  117_00035243703985130526_017_00040065782439365477_117_00045614859865303564_017_00021197810324484165_118_00062072901351934134_116_00003338886116348349_115_00001224744871391589_0,
  117_00035243703985130526_017_00040065782439365477_116_00003278541731543898_016_00005129280437275106_118_00014940857804527726_116_00003338886116348349_015_00000816496580927726_0,
  116_00003024410062236841_016_00005354595956047504_116_00006402232091510928_016_00007737513254791571_018_00016480504560409875_116_00003338886116348349_015_00000816496580927726_0,
  116_00003024410062236841_016_00005354595956047504_016_00004976925648368967_018_00021376474272484798_017_00004790186692534748_116_00003338886116348349_115_00001224744871391589_0,
  116_00002524449725960345_016_00005354595956047504_016_00012005228958294785_116_00008714416824927665_017_00009503391047275388_116_00003338886116348349_115_00001224744871391589_0,
  117_00020244893896838492_015_00000602860481210279_016_00009885581928317156_116_00011523282936099244_016_00001421659540201603_116_00003338886116348349_015_00000816496580927726_0,
  116_00002524449725960345_015_00000602860481210279_116_00008968120601483845_016_00008740679723067134_016_00001735873163850979_116_00003338886116348349_115_00001224744871391589_0,
  117_00020244893896838492_015_00000670261366815846_016_00009439340448321867_116_00009015366765410335_016_00002207193599325043_116_00003338886116348349_015_00000816496580927726_0,
  117_00020244893896838492_015_00000670261366815846_115_00000606755098151446_117_00016922515469987276_016_00002521407222974419_116_00003338886116348349_015_00000816496580927726_0,
  117_00015245290534076375_016_00008050631380269416_017_00011838730684090021_016_00003925480675344427_016_00002835620846623795_116_00003338886116348349_115_00001224744871391589_0,
  117_00020244893896838492_015_00000737662252421413_015_00000782171508333894_116_00009316316705893005_016_00003306941282097859_116_00003338886116348349_015_00000816496580927726_0,
  117_00020244893896838492_015_00000737662252421413_117_00009915541465680366_117_00027957346621018414_017_00036211549057472353_116_00003338886116348349_015_00000816496580927726_0,
  117_00020244893896838492_015_00000737662252421413_016_00006148309533356603_116_00006206500654238761_016_00003935368529396611_116_00003338886116348349_115_00001224744871391589_0,
  116_00002524449725960345_015_00000670261366815846_116_00004896167096526824_016_00003323580794379088_017_00044066889648706753_116_00003338886116348349_115_00001224744871391589_0,
  116_00003024410062236841_016_00005354595956047504_116_00008242978196491499_016_00008941313016722243_017_00048780094003447394_116_00003338886116348349_015_00000816496580927726_0,
  117_00035243703985130526_016_00005354595956047504_117_00008799937765692141_016_00000915981270517738_016_00005192223023994115_116_00003338886116348349_115_00001224744871391589_0,
  117_00035243703985130526_016_00004680587099991834_116_00002441838956552729_117_00007894017255507152_016_00005663543459468179_116_00003338886116348349_015_00000816496580927726_0,
  117_00035243703985130526_016_00004680587099991834_116_00005509749131520348_016_00005530547024585329_016_00005977757083117555_116_00003338886116348349_115_00001224744871391589_0,
  116_00003024410062236841_016_00005354595956047504_016_00002578377693394283_116_00008614100178100111_016_00006449077518591619_016_00029950108064592316_115_00001224744871391589_0,
  116_00002524449725960345_016_00005354595956047504_115_00000919124134148149_016_00008339413135756903_015_00000723461157771506_116_00003338886116348349_015_00000816496580927726_0,
  116_00002524449725960345_016_00005354595956047504_116_00001772476736559794_018_00021376474272484798_016_00007548825201364435_116_00003338886116348349_115_00001224744871391589_0,
  116_00002524449725960345_015_00000602860481210279_017_00021321362133989932_116_00005403967479618307_016_00008020145636838499_116_00003338886116348349_115_00001224744871391589_0,
  116_00002524449725960345_015_00000602860481210279_116_00002386058771553318_117_00014916182533436123_016_00008491466072312563_116_00003338886116348349_015_00000816496580927726_0,
  117_00020244893896838492_015_00000602860481210279_116_00002888080436548019_015_00000252104761975864_015_00000880567969596194_116_00003338886116348349_015_00000816496580927726_0,
  117_00020244893896838492_015_00000602860481210279_014_00000175274672732365_116_00013730249166305482_016_00009119893319611315_116_00003338886116348349_015_00000816496580927726_0,
  117_00015245290534076375_015_00000670261366815846_116_00005788650056517404_015_00001014511277865292_016_00009434106943260692_116_00003338886116348349_115_00001224744871391589_0,
  117_00010245687171311416_015_00000737662252421413_016_00012507250623289485_116_00014532782340925934_016_00009905427378734756_116_00003338886116348349_115_00001224744871391589_0,
  117_00010245687171311416_015_00000737662252421413_016_00015686721168255926_116_00015134682221891271_015_00001037674781420882_116_00003338886116348349_015_00000816496580927726_0,
  117_00010245687171311416_015_00000737662252421413_117_00022744984015544953_116_00001892884840653836_016_00010690961437858195_116_00003338886116348349_115_00001224744871391589_0,
  117_00010245687171311416_015_00000737662252421413_017_00035824210233836856_117_00049023842454805255_015_00001116228187333226_116_00003338886116348349_015_00000816496580927726_0,
  117_00010245687171311416_015_00000737662252421413_116_00007071594311503863_015_00000252104761975864_016_00011476495496981636_116_00003338886116348349_015_00000816496580927726_0,
  117_00010245687171311416_015_00000737662252421413_016_00002745718248392517_116_00001993201487481394_015_00001179070912063101_116_00003338886116348349_015_00000816496580927726_0,
  117_00010245687171311416_015_00000670261366815846_015_00002282658484818057_116_00020050197916441532_016_00012104922744280389_116_00003338886116348349_115_00001224744871391589_0,
  117_00015245290534076375_015_00000602860481210279_116_00008633439491487378_016_00008239096488929353_016_00012576243179754452_116_00003338886116348349_015_00000816496580927726_0,
  117_00015245290534076375_016_00005354595956047504_017_00028014984333919285_115_00000399953442403252_016_00012890456803403827_116_00003338886116348349_015_00000816496580927726_0,
  117_00015245290534076375_016_00005354595956047504_116_00007462055606499741_016_00007637196607964014_016_00013204670427053204_116_00003338886116348349_115_00001224744871391589_0,
  117_00015245290534076375_015_00000602860481210279_116_00002664959696550374_018_00011344809589729025_016_00013675990862527267_116_00003338886116348349_015_00000816496580927726_0,
  117_00015245290534076375_016_00005354595956047504_116_00006736913201507395_015_00000663403013968845_016_00013990204486176645_016_00029950108064592316_115_00001224744871391589_0,
  117_00020244893896838492_016_00005354595956047504_017_00035824210233836856_117_00046014343049978595_016_00014775738545300083_116_00003338886116348349_115_00001224744871391589_0,
  117_00020244893896838492_016_00004680587099991834_016_00021376300038195875_116_00016739748571132171_016_00015247058980774149_116_00003338886116348349_015_00000816496580927726_1,
  116_00002524449725960345_016_00004680587099991834_116_00009749043191475603_016_00009543212897687582_116_00016959837443286896_116_00003338886116348349_115_00001224744871391589_0,
  116_00003024410062236841_016_00004680587099991834_017_00006818514034143008_017_00012169312110004112_115_00001648851700781283_116_00003338886116348349_015_00000816496580927726_0,
  116_00002524449725960345_016_00004680587099991834_017_00028014984333919285_116_00006507450594721428_116_00016174303384163455_116_00003338886116348349_015_00000816496580927726_0,
  116_00002524449725960345_016_00004680587099991834_116_00006458012276510339_016_00016565378175616523_116_00015860089760514078_116_00003338886116348349_115_00001224744871391589_0,
  116_00003024410062236841_017_00040065782439365477_116_00006736913201507395_015_00001315461218347961_116_00015388769325040015_116_00003338886116348349_015_00000816496580927726_0,
  117_00035243703985130526_017_00033325693878808776_116_00007517835791499152_016_00007536879961136456_115_00001507455570139064_116_00003338886116348349_115_00001224744871391589_0,
  117_00035243703985130526_017_00033325693878808776_116_00014378798546426736_015_00001987582752092588_116_00014603235265916574_116_00003338886116348349_015_00000816496580927726_0,
  117_00035243703985130526_017_00033325693878808776_117_00005453126665727467_017_00013172478578279617_114_00000142890216422672_116_00003338886116348349_015_00000816496580927726_0,
  117_00035243703985130526_017_00033325693878808776_017_00013512136234072358_017_00021197810324484165_116_00013974808018617824_116_00003338886116348349_115_00001224744871391589_0,
  116_00003024410062236841_017_00040065782439365477_116_00010641526151466183_016_00014559045239065398_116_00013503487583143758_116_00003338886116348349_015_00000816496580927726_0,
  117_00035243703985130526_017_00033325693878808776_117_00042825850615333005_017_00005147146832075141_116_00013189273959494383_116_00003338886116348349_115_00001224744871391589_0,
  117_00035243703985130526_016_00002658560531825208_117_00016051361815615603_016_00005530547024585329_116_00012717953524020318_016_00029950108064592316_115_00001224744871391589_0,
  117_00040243307347895485_016_00002658560531825208_117_00037247832115391877_016_00003323580794379088_116_00011932419464896877_116_00003338886116348349_015_00000816496580927726_0,
  117_00040243307347895485_016_00002658560531825208_115_00001192447040645264_015_00001205112906837649_116_00011618205841247502_116_00003338886116348349_115_00001224744871391589_0,
  117_00040243307347895485_016_00002658560531825208_017_00017416749184031147_117_00026954180152742907_115_00001114688540577344_116_00003338886116348349_015_00000816496580927726_0,
  117_00040243307347895485_016_00002658560531825208_116_00008912340416484434_016_00006834663433343559_116_00010832671782124061_116_00003338886116348349_015_00000816496580927726_0,
  115_00000452429107106576_017_00013105428197142516_116_00010418405411468539_016_00012853662242996937_116_00010518458158474686_116_00003338886116348349_015_00000816496580927726_0,
  115_00000452429107106576_017_00019845516757699214_015_00001049916396331068_116_00011322649642444131_115_00001020424453482531_116_00003338886116348349_015_00000816496580927726_0,
  116_00005024251407342256_016_00000636533963658965_116_00005955990611515638_016_00010044796131825364_116_00009890030911175934_016_00029950108064592316_115_00001224744871391589_0,
  116_00005524211743618752_016_00000636533963658965_116_00004059464321535655_016_00003423897441206646_116_00009104496852052494_116_00003338886116348349_015_00000816496580927726_0,
  116_00005524211743618752_016_00000636533963658965_117_00016051361815615603_116_00001993201487481394_116_00008790283228403118_116_00003338886116348349_015_00000816496580927726_0,
  116_00005024251407342256_017_00013105428197142516_116_00002720739881549785_017_00011166145641728534_116_00008476069604753742_116_00003338886116348349_015_00000816496580927726_0,
  116_00005024251407342256_016_00000636533963658965_116_00004226804876533889_116_00002595101368446733_116_00008161855981104366_116_00003338886116348349_015_00000816496580927726_0]

/-- lr/data.csv 9602-9701 -/
def dataCsv96 : List ℕ := [
  116_00005524211743618752_118_00003747489239670474_017_00012396532534084133_016_00005329913730930215_115_00000784764235745499_116_00003338886116348349_115_00001224744871391589_0,
  116_00005524211743618752_016_00000636533963658965_016_00031807194633085776_116_00022056530852992657_116_00007376321921980926_116_00003338886116348349_015_00000816496580927726_0,
  116_00005524211743618752_017_00013105428197142516_016_00009271999893323634_116_00007510617062996991_115_00000706210829833155_116_00003338886116348349_015_00000816496580927726_0,
  116_00005524211743618752_016_00000636533963658965_017_00005702910334154783_018_00021376474272484798_116_00006747894674682174_116_00003338886116348349_115_00001224744871391589_0,
  116_00005024251407342256_017_00013105428197142516_016_00005478947313363668_116_00001993201487481394_115_00000627657423920811_016_00029950108064592316_115_00001224744871391589_0,
  116_00005524211743618752_016_00000636533963658965_117_00030554209915462527_117_00020935181343089515_115_00000549104018008467_116_00003338886116348349_115_00001224744871391589_0,
  116_00005524211743618752_016_00000636533963658965_116_00007685176346497387_016_00004427063909482209_116_00005019719744610606_116_00003338886116348349_015_00000816496580927726_0,
  116_00005524211743618752_016_00000636533963658965_017_00017974551034025257_117_00031970012494120725_115_00000470550612096123_116_00003338886116348349_015_00000816496580927726_0,
  116_00005524211743618752_016_00000636533963658965_117_00014377956265633265_017_00015178811514830773_116_00004391292497311854_116_00003338886116348349_115_00001224744871391589_0,
  116_00005024251407342256_016_00000636533963658965_117_00038363435815380104_017_00003140813895523986_115_00000391997206183779_116_00003338886116348349_015_00000816496580927726_0,
  116_00005024251407342256_016_00000636533963658965_117_00018840371065586167_017_00013172478578279617_117_00036057584381884134_116_00003338886116348349_015_00000816496580927726_0,
  116_00005024251407342256_017_00013105428197142516_116_00005955990611515638_016_00002220097679275974_117_00032915448145390375_116_00003338886116348349_015_00000816496580927726_0,
  116_00005024251407342256_017_00013105428197142516_017_00048095850933707335_116_00008212833590789884_117_00029773311908896616_116_00003338886116348349_115_00001224744871391589_0,
  116_00005024251407342256_017_00013105428197142516_116_00009023900786483257_016_00022584376985269903_117_00025060107554155975_116_00003338886116348349_015_00000816496580927726_1,
  115_00000452429107106576_017_00019845516757699214_116_00005453968946520936_016_00003925480675344427_117_00021917971317662216_116_00003338886116348349_115_00001224744871391589_0,
  116_00005024251407342256_017_00013105428197142516_017_00014069938084066472_118_00008718519775782523_117_00017204766962921575_116_00003338886116348349_115_00001224744871391589_0,
  116_00005524211743618752_016_00000636533963658965_016_00002299476768397227_117_00026954180152742907_117_00012491562608180934_116_00003338886116348349_015_00000816496580927726_0,
  116_00005024251407342256_017_00013105428197142516_117_00012704550715650928_116_00004701750951825417_117_00009349426371687174_116_00003338886116348349_015_00000816496580927726_0,
  116_00005024251407342256_016_00000636533963658965_116_00005119287836524469_017_00028219975602413067_118_00062072901351934134_116_00003338886116348349_015_00000816496580927726_0,
  116_00005524211743618752_118_00003747489239670474_116_00012036030776451463_016_00012953978889824496_117_00003065153898699653_116_00003338886116348349_115_00001224744871391589_0,
  116_00005524211743618752_118_00003747489239670474_117_00038363435815380104_016_00005931813611895553_018_00016480504560409875_116_00003338886116348349_015_00000816496580927726_0,
  116_00005024251407342256_118_00003747489239670474_016_00028460383533121103_116_00020551781150579314_017_00004790186692534748_116_00003338886116348349_115_00001224744871391589_0,
  116_00005524211743618752_118_00003747489239670474_016_00014236436358271234_116_00012827399344857475_017_00009503391047275388_116_00003338886116348349_015_00000816496580927726_0,
  116_00005524211743618752_016_00000636533963658965_116_00010195284671470892_016_00007837829901619122_017_00012645527283769148_116_00003338886116348349_015_00000816496580927726_0,
  116_00005024251407342256_016_00000636533963658965_017_00009049721434119458_117_00013913016065160544_016_00001578766352026291_016_00029950108064592316_115_00001224744871391589_0,
  116_00005024251407342256_016_00000636533963658965_116_00002888080436548019_016_00007536879961136456_016_00002364300411149731_116_00003338886116348349_115_00001224744871391589_0,
  116_00005024251407342256_118_00003747489239670474_116_00011031987446462062_016_00018972977699477873_016_00002835620846623795_116_00003338886116348349_115_00001224744871391589_0,
  116_00005524211743618752_118_00003747489239670474_116_00002888080436548019_117_00033976345430671806_016_00003306941282097859_116_00003338886116348349_115_00001224744871391589_0,
  116_00005024251407342256_118_00003747489239670474_017_00016858947334037033_115_00000570491742010098_016_00003778261717571923_016_00029950108064592316_115_00001224744871391589_0,
  116_00005024251407342256_016_00000636533963658965_016_00028683504273118747_114_00000203511478569242_016_00004563795776695363_016_00029950108064592316_115_00001224744871391589_0,
  116_00005024251407342256_016_00000636533963658965_017_00024668173233954607_117_00042001677176876356_016_00005349329835818804_116_00003338886116348349_015_00000816496580927726_0,
  116_00005024251407342256_118_00003747489239670474_016_00007431253788343062_116_00006808400535204094_016_00005663543459468179_116_00003338886116348349_015_00000816496580927726_0,
  116_00005024251407342256_118_00003747489239670474_116_00011255108186459706_015_00001746822799706453_016_00005977757083117555_116_00003338886116348349_115_00001224744871391589_0,
  115_00000452429107106576_016_00000636533963658965_116_00006569572646509162_017_00012169312110004112_016_00006449077518591619_016_00029950108064592316_115_00001224744871391589_0,
  115_00000452429107106576_017_00013105428197142516_116_00006346451906511517_016_00012753345596169388_015_00000723461157771506_116_00003338886116348349_015_00000816496580927726_0,
  117_00040243307347895485_017_00013105428197142516_016_00003917102133380153_116_00006808400535204094_016_00007548825201364435_116_00003338886116348349_015_00000816496580927726_0,
  117_00040243307347895485_017_00019845516757699214_116_00001772476736559794_017_00013172478578279617_016_00007863038825013812_116_00003338886116348349_015_00000816496580927726_0,
  117_00040243307347895485_017_00019845516757699214_116_00004226804876533889_117_00010903516660333884_016_00008177252448663187_116_00003338886116348349_015_00000816496580927726_0,
  117_00035243703985130526_016_00002658560531825208_116_00008131417826492676_015_00000492864714361999_016_00008491466072312563_016_00029950108064592316_115_00001224744871391589_0,
  117_00035243703985130526_016_00002658560531825208_016_00010387603593311858_114_00000132286659321677_016_00009277000131436004_116_00003338886116348349_015_00000816496580927726_0,
  116_00003024410062236841_017_00033325693878808776_117_00013820154415639155_117_00038992177772049624_016_00009591213755085379_116_00003338886116348349_015_00000816496580927726_0,
  117_00035243703985130526_016_00002658560531825208_116_00009693263006476192_016_00013957145358100058_016_00009905427378734756_116_00003338886116348349_015_00000816496580927726_0,
  116_00003024410062236841_017_00033325693878808776_116_00009302801711480313_016_00006333080199205777_016_00010219641002384132_116_00003338886116348349_015_00000816496580927726_0,
  116_00003024410062236841_016_00002658560531825208_117_00016609163665609716_017_00006150313300350718_016_00010533854626033508_116_00003338886116348349_015_00000816496580927726_0,
  117_00035243703985130526_016_00002658560531825208_016_00005032705833368378_116_00007410300416169433_016_00010848068249682883_116_00003338886116348349_015_00000816496580927726_0,
  116_00003024410062236841_017_00033325693878808776_016_00011726328033297728_116_00011924549523409467_015_00001116228187333226_116_00003338886116348349_015_00000816496580927726_0,
  116_00003024410062236841_016_00002658560531825208_017_00024110371383960497_116_00008313150237617443_016_00011476495496981636_116_00003338886116348349_015_00000816496580927726_0,
  117_00040243307347895485_017_00013105428197142516_117_00045057058015309454_016_00007035296726998674_015_00001179070912063101_116_00003338886116348349_015_00000816496580927726_0,
  115_00000452429107106576_016_00000636533963658965_116_00006848473571506217_017_00012169312110004112_016_00012104922744280389_116_00003338886116348349_015_00000816496580927726_0,
  115_00000452429107106576_118_00003747489239670474_016_00006594551013351894_116_00006908717182031652_016_00012419136367929764_016_00029950108064592316_115_00001224744871391589_0,
  115_00000452429107106576_118_00003747489239670474_116_00005677089686518582_017_00011166145641728534_016_00013204670427053204_116_00003338886116348349_115_00001224744871391589_0,
  115_00000452429107106576_118_00003747489239670474_016_00002299476768397227_115_00000399953442403252_016_00013675990862527267_116_00003338886116348349_115_00001224744871391589_0,
  116_00005024251407342256_118_00003747489239670474_116_00002832300251548608_016_00006333080199205777_016_00014147311298001333_116_00003338886116348349_115_00001224744871391589_0,
  116_00005024251407342256_117_00007114837484523745_116_00009247021526480902_016_00015762845000996077_016_00014618631733475396_116_00003338886116348349_015_00000816496580927726_1,
  115_00000452429107106576_118_00003747489239670474_116_00009581702636477369_016_00016364744881961408_016_00014932845357124773_116_00003338886116348349_015_00000816496580927726_1,
  115_00000452429107106576_118_00003747489239670474_116_00006011770796515049_016_00009543212897687582_016_00015247058980774149_016_00029950108064592316_115_00001224744871391589_0,
  116_00005024251407342256_016_00000636533963658965_016_00004698024723371911_116_00007009033828859209_015_00001603259303989759_116_00003338886116348349_015_00000816496580927726_0,
  116_00005024251407342256_118_00003747489239670474_117_00030554209915462527_117_00003881351382404913_016_00016346806663546964_116_00003338886116348349_015_00000816496580927726_0,
  116_00005024251407342256_117_00007114837484523745_017_00005145108484160671_116_00005504284126445864_015_00001666102028719634_116_00003338886116348349_015_00000816496580927726_0,
  116_00005524211743618752_116_00001385492604507661_116_00014044117436430268_016_00021982477104304565_016_00016975233910845717_116_00003338886116348349_015_00000816496580927726_1,
  116_00005524211743618752_116_00001385492604507661_116_00008187198011492087_015_00000312294750072398_016_00017289447534495093_116_00003338886116348349_115_00001224744871391589_0,
  116_00005024251407342256_118_00003747489239670474_117_00045057058015309454_015_00000492864714361999_016_00017760767969969156_016_00029950108064592316_115_00001224744871391589_0,
  115_00000452429107106576_016_00000636533963658965_017_00017416749184031147_116_00009115683412237894_016_00018546302029092596_116_00003338886116348349_115_00001224744871391589_0,
  115_00000452429107106576_016_00000636533963658965_116_00005788650056517404_016_00008840996369894685_016_00019017622464566661_116_00003338886116348349_015_00000816496580927726_1,
  115_00000452429107106576_017_00013105428197142516_116_00012370711886447932_016_00014859995179548064_016_00019331836088216037_116_00003338886116348349_015_00000816496580927726_1,
  117_00040243307347895485_017_00019845516757699214_016_00003972882318379565_116_00006708083888376544_016_00019646049711865412_116_00003338886116348349_015_00000816496580927726_0,
  115_00000452429107106576_017_00019845516757699214_015_00001669076449824533_116_00016037532043339278_015_00001996026333551479_116_00003338886116348349_115_00001224744871391589_0,
  117_00040243307347895485_017_00019845516757699214_116_00010418405411468539_016_00008941313016722243_016_00020431583770988855_116_00003338886116348349_015_00000816496580927726_1,
  115_00000452429107106576_017_00019845516757699214_016_00004474903983374266_117_00048020675986529676_015_00002074579739463823_116_00003338886116348349_015_00000816496580927726_0,
  115_00000452429107106576_017_00019845516757699214_016_00004474903983374266_116_00008915050118582778_016_00021060011018287605_116_00003338886116348349_015_00000816496580927726_0,
  116_00005024251407342256_017_00013105428197142516_016_00008435297118332464_116_00009316316705893005_015_00002137422464193698_116_00003338886116348349_015_00000816496580927726_0,
  116_00005024251407342256_017_00013105428197142516_116_00007071594311503863_016_00004126113968999543_016_00021688438265586356_116_00003338886116348349_015_00000816496580927726_0,
  116_00005024251407342256_017_00013105428197142516_016_00011447427108300672_116_00008513783531272554_116_00016959837443286896_016_00029950108064592316_115_00001224744871391589_0,
  116_00005024251407342256_016_00000636533963658965_017_00030246191733895733_117_00046014343049978595_116_00016174303384163455_116_00003338886116348349_115_00001224744871391589_0,
  115_00000452429107106576_017_00013105428197142516_016_00008714198043329521_116_00010419799820996123_115_00001570298294868939_116_00003338886116348349_015_00000816496580927726_0,
  116_00005024251407342256_017_00013105428197142516_116_00013430535401436745_016_00017267594703409421_116_00015388769325040015_116_00003338886116348349_115_00001224744871391589_0,
  116_00005024251407342256_016_00000636533963658965_015_00001936821337821707_116_00018846398154510855_115_00001491744888956595_116_00003338886116348349_015_00000816496580927726_0,
  116_00005024251407342256_016_00000636533963658965_015_00002756790057313052_115_00002075241444423442_116_00014603235265916574_116_00003338886116348349_015_00000816496580927726_0,
  115_00000452429107106576_017_00013105428197142516_016_00009606681003320101_116_00011924549523409467_114_00000142890216422672_116_00003338886116348349_115_00001224744871391589_0,
  115_00000452429107106576_017_00013105428197142516_015_00000330352009838663_116_00006607767241548985_116_00013817701206793134_116_00003338886116348349_015_00000816496580927726_0,
  115_00000452429107106576_016_00000636533963658965_015_00001981445485821236_116_00015836898749684165_116_00013503487583143758_116_00003338886116348349_015_00000816496580927726_0,
  115_00000452429107106576_016_00000636533963658965_116_00007071594311503863_016_00004427063909482209_116_00013189273959494383_116_00003338886116348349_115_00001224744871391589_0,
  115_00000452429107106576_118_00003747489239670474_116_00008075637641493265_015_00000663403013968845_116_00012717953524020318_116_00003338886116348349_015_00000816496580927726_0,
  116_00005024251407342256_118_00003747489239670474_116_00011199328001460296_016_00016465061528788967_116_00012403739900370943_116_00003338886116348349_115_00001224744871391589_0,
  116_00005524211743618752_117_00007114837484523745_116_00009079680971482668_016_00011047962600100927_116_00011932419464896877_016_00029950108064592316_115_00001224744871391589_0,
  116_00005024251407342256_118_00003747489239670474_116_00009972163931473248_016_00008138779842101795_115_00001114688540577344_116_00003338886116348349_015_00000816496580927726_0,
  115_00000452429107106576_016_00000636533963658965_117_00029438606215474306_017_00007153479768626296_116_00010832671782124061_116_00003338886116348349_015_00000816496580927726_0,
  115_00000452429107106576_016_00000636533963658965_016_00006148309533356603_116_00008413466884444997_116_00010518458158474686_116_00003338886116348349_115_00001224744871391589_0,
  115_00000452429107106576_016_00000636533963658965_116_00009581702636477369_016_00005630863671412888_116_00010047137723000623_116_00003338886116348349_015_00000816496580927726_0,
  116_00005024251407342256_016_00000636533963658965_116_00009860603561474425_016_00019574877580443213_116_00009732924099351247_116_00003338886116348349_015_00000816496580927726_0,
  116_00005524211743618752_118_00003747489239670474_117_00010473343315674478_117_00044008010113427437_115_00000941871047570187_116_00003338886116348349_115_00001224744871391589_0,
  116_00005024251407342256_118_00003747489239670474_017_00024110371383960497_115_00000811251694396233_116_00008947390040227806_116_00003338886116348349_015_00000816496580927726_0,
  116_00005024251407342256_118_00003747489239670474_016_00007152352863346005_116_00010018533233685898_115_00000863317641657843_116_00003338886116348349_115_00001224744871391589_0,
  116_00005524211743618752_118_00003747489239670474_016_00008602637673330699_116_00011222332995616573_116_00008161855981104366_116_00003338886116348349_015_00000816496580927726_0,
  116_00005524211743618752_118_00003747489239670474_017_00011280928834095907_116_00006607767241548985_115_00000784764235745499_116_00003338886116348349_015_00000816496580927726_0,
  116_00005524211743618752_117_00007114837484523745_016_00002968838988390162_116_00008012200297134773_116_00007533428733805614_116_00003338886116348349_015_00000816496580927726_0,
  116_00005524211743618752_117_00007114837484523745_116_00007517835791499152_118_00018750184458538297_116_00007219215110156237_116_00003338886116348349_015_00000816496580927726_0,
  116_00006024172079894964_116_00001385492604507661_116_00007015814126504452_016_00005530547024585329_116_00006905001486506862_116_00003338886116348349_115_00001224744871391589_0,
  116_00006024172079894964_116_00001385492604507661_016_00006929232123348361_116_00011824232876581913_116_00006433681051032798_116_00003338886116348349_015_00000816496580927726_0,
  116_00006024172079894964_116_00001385492604507661_116_00001716696551560383_116_00003698584483549854_116_00006119467427383422_116_00003338886116348349_015_00000816496580927726_0]

/-- lr/data.csv 9702-9801 -/
def dataCsv97 : List ℕ := [
  116_00005524211743618752_116_00001385492604507661_116_00010362625226469127_015_00001375651206444495_116_00005805253803734046_116_00003338886116348349_115_00001224744871391589_0,
  116_00006024172079894964_116_00001385492604507661_117_00029996408065468416_017_00024207309729310825_116_00005333933368259982_116_00003338886116348349_015_00000816496580927726_0,
  116_00005524211743618752_118_00003747489239670474_016_00005255826573366024_116_00008814733471755224_116_00005019719744610606_116_00003338886116348349_015_00000816496580927726_0,
  116_00005524211743618752_118_00003747489239670474_115_00000651379246150975_016_00003624530734861761_115_00000470550612096123_116_00003338886116348349_015_00000816496580927726_0,
  116_00005524211743618752_016_00000636533963658965_017_00021321362133989932_017_00014175645046555194_116_00004391292497311854_116_00003338886116348349_015_00000816496580927726_0,
  116_00005524211743618752_118_00003747489239670474_117_00031669813615450754_017_00011166145641728534_117_00040770788736624775_116_00003338886116348349_015_00000816496580927726_0,
  116_00005024251407342256_016_00000636533963658965_016_00009271999893323634_115_00000991821658685834_117_00037628652500131016_116_00003338886116348349_115_00001224744871391589_0,
  116_00005024251407342256_016_00000636533963658965_016_00008937318783327166_116_00007109350475686768_117_00032915448145390375_116_00003338886116348349_015_00000816496580927726_0,
  116_00005024251407342256_016_00000636533963658965_016_00006985012308347772_116_00010319483174168569_117_00029773311908896616_116_00003338886116348349_015_00000816496580927726_0,
  116_00005024251407342256_118_00003747489239670474_117_00029438606215474306_116_00005403967479618307_117_00026631175672402857_116_00003338886116348349_115_00001224744871391589_0,
  115_00000452429107106576_016_00000636533963658965_116_00011310888371459118_016_00021380577223339223_117_00021917971317662216_116_00003338886116348349_015_00000816496580927726_0,
  115_00000452429107106576_016_00000636533963658965_116_00006123331166513871_016_00002922314207068864_117_00018775835081168454_016_00029950108064592316_115_00001224744871391589_0,
  115_00000452429107106576_017_00013105428197142516_116_00004617266171529768_016_00008439729782584461_117_00010920494489934053_116_00003338886116348349_115_00001224744871391589_0,
  115_00000452429107106576_017_00013105428197142516_116_00002386058771553318_016_00005028963790447548_118_00062072901351934134_116_00003338886116348349_015_00000816496580927726_0,
  115_00000452429107106576_016_00000636533963658965_015_00001981445485821236_116_00019949881269613972_117_00003065153898699653_116_00003338886116348349_015_00000816496580927726_0,
  115_00000452429107106576_016_00000636533963658965_116_00009247021526480902_015_00001566252835416852_019_00007698233779410749_116_00003338886116348349_015_00000816496580927726_0,
  116_00005024251407342256_118_00003747489239670474_116_00008466098936489144_016_00005229597084102664_017_00003219118574287868_016_00029950108064592316_115_00001224744871391589_0,
  116_00005524211743618752_117_00007114837484523745_116_00002162938031555673_017_00042264306158271003_017_00011074459165522269_116_00003338886116348349_015_00000816496580927726_0,
  116_00005524211743618752_117_00007114837484523745_117_00012146748865656816_117_00033976345430671806_016_00001421659540201603_116_00003338886116348349_015_00000816496580927726_0,
  116_00005524211743618752_117_00007114837484523745_116_00012816953366443222_016_00016264428235133859_016_00001735873163850979_116_00003338886116348349_015_00000816496580927726_0,
  116_00005524211743618752_117_00007114837484523745_116_00010139504486471482_016_00014559045239065398_016_00002050086787500355_116_00003338886116348349_115_00001224744871391589_0,
  116_00006024172079894964_116_00001385492604507661_116_00002720739881549785_017_00006150313300350718_016_00002521407222974419_116_00003338886116348349_015_00000816496580927726_0,
  116_00006024172079894964_116_00001385492604507661_015_00002076271800320235_116_00018445131567200628_016_00002835620846623795_016_00029950108064592316_115_00001224744871391589_0,
  116_00006024172079894964_116_00001385492604507661_016_00003359300283386041_115_00000640713394789387_017_00036211549057472353_116_00003338886116348349_015_00000816496580927726_0,
  116_00006024172079894964_117_00020595014605633308_016_00031193612598092253_116_00021053364384717095_016_00003935368529396611_116_00003338886116348349_115_00001224744871391589_0,
  115_00000652413241617146_117_00020595014605633308_016_00005032705833368378_116_00012125182817064584_017_00044066889648706753_116_00003338886116348349_115_00001224744871391589_0,
  116_00006024172079894964_116_00001385492604507661_017_00010165325134107683_117_00027957346621018414_017_00048780094003447394_116_00003338886116348349_015_00000816496580927726_0,
  116_00006024172079894964_116_00001385492604507661_117_00043383652465327116_117_00005887684318956068_016_00005192223023994115_116_00003338886116348349_015_00000816496580927726_0,
  116_00006024172079894964_116_00001385492604507661_017_00013512136234072358_116_00006306817301066312_016_00005506436647643491_116_00003338886116348349_015_00000816496580927726_0,
  115_00000652413241617146_116_00001385492604507661_016_00008714198043329521_116_00011021699701961463_016_00005820650271292868_116_00003338886116348349_015_00000816496580927726_0,
  116_00006024172079894964_118_00003747489239670474_118_00060109285157215794_117_00032973178962396227_016_00006134863894942243_116_00003338886116348349_015_00000816496580927726_0,
  116_00006024172079894964_118_00003747489239670474_116_00008354538566490322_015_00000964352954451514_016_00006449077518591619_116_00003338886116348349_015_00000816496580927726_0,
  116_00005524211743618752_118_00003747489239670474_015_00003861237720301395_116_00022658430733957995_016_00006763291142240996_116_00003338886116348349_015_00000816496580927726_0,
  116_00005524211743618752_016_00000636533963658965_116_00005398188761521525_016_00002922314207068864_016_00007077504765890371_116_00003338886116348349_115_00001224744871391589_0,
  116_00005524211743618752_016_00000636533963658965_117_00045057058015309454_016_00004326747262654651_016_00007548825201364435_016_00029950108064592316_115_00001224744871391589_0,
  116_00005024251407342256_016_00000636533963658965_116_00005286628391522703_016_00007737513254791571_016_00008334359260487876_116_00003338886116348349_015_00000816496580927726_0,
  116_00005524211743618752_118_00003747489239670474_116_00010641526151466183_016_00018270761171684984_016_00008648572884137251_116_00003338886116348349_115_00001224744871391589_0,
  116_00005524211743618752_118_00003747489239670474_013_00000014069095803273_116_00012426132757547248_016_00009119893319611315_116_00003338886116348349_015_00000816496580927726_0,
  116_00005024251407342256_118_00003747489239670474_117_00016609163665609716_116_00001993201487481394_016_00009434106943260692_116_00003338886116348349_015_00000816496580927726_0,
  116_00005524211743618752_118_00003747489239670474_117_00013262352565645041_016_00002922314207068864_016_00009748320566910068_116_00003338886116348349_015_00000816496580927726_0,
  116_00005524211743618752_016_00000636533963658965_015_00000648299064335307_116_00008513783531272554_016_00010062534190559445_116_00003338886116348349_115_00001224744871391589_0,
  116_00005524211743618752_016_00000636533963658965_116_00002441838956552729_016_00002922314207068864_016_00010533854626033508_116_00003338886116348349_015_00000816496580927726_0,
  116_00005524211743618752_017_00013105428197142516_016_00004698024723371911_117_00027957346621018414_016_00010848068249682883_116_00003338886116348349_015_00000816496580927726_0,
  116_00005524211743618752_017_00013105428197142516_017_00012954334384078245_015_00000252104761975864_015_00001116228187333226_116_00003338886116348349_015_00000816496580927726_0,
  116_00006024172079894964_016_00000636533963658965_017_00019647956584007595_117_00037989011303774045_016_00011476495496981636_116_00003338886116348349_015_00000816496580927726_0,
  116_00006024172079894964_118_00003747489239670474_016_00004028662503378976_116_00007610933709824549_015_00001179070912063101_116_00003338886116348349_015_00000816496580927726_0,
  116_00006024172079894964_118_00003747489239670474_116_00007573615976498564_016_00005630863671412888_016_00012104922744280389_116_00003338886116348349_015_00000816496580927726_0,
  116_00006024172079894964_016_00000636533963658965_117_00032227615465444864_016_00007436563314308898_016_00012419136367929764_116_00003338886116348349_015_00000816496580927726_0,
  116_00005524211743618752_016_00000636533963658965_116_00005453968946520936_017_00012169312110004112_015_00001273334999157914_116_00003338886116348349_115_00001224744871391589_0,
  116_00006024172079894964_016_00000636533963658965_117_00031112011765456643_016_00005430230377757772_016_00013204670427053204_016_00029950108064592316_115_00001224744871391589_0,
  115_00000652413241617146_118_00003747489239670474_017_00009049721434119458_116_00007410300416169433_016_00013990204486176645_116_00003338886116348349_015_00000816496580927726_0,
  116_00007024092752447672_117_00007114837484523745_017_00042517832433766206_116_00011222332995616573_015_00001430441810982602_116_00003338886116348349_015_00000816496580927726_0,
  116_00007024092752447672_116_00001385492604507661_017_00012396532534084133_116_00007410300416169433_016_00014618631733475396_116_00003338886116348349_015_00000816496580927726_0,
  116_00007524053088724167_116_00001385492604507661_017_00030246191733895733_117_00049023842454805255_016_00014932845357124773_116_00003338886116348349_015_00000816496580927726_0,
  116_00007524053088724167_117_00020595014605633308_016_00000737631588413712_116_00006005867360583647_016_00015247058980774149_116_00003338886116348349_115_00001224744871391589_0,
  116_00007524053088724167_117_00020595014605633308_017_00012396532534084133_116_00004701750951825417_016_00015718379416248212_016_00029950108064592316_115_00001224744871391589_0,
  116_00007024092752447672_116_00001385492604507661_016_00003247739913387218_117_00040998510708600777_016_00016503913475371652_116_00003338886116348349_015_00000816496580927726_0,
  116_00007024092752447672_117_00007114837484523745_117_00012146748865656816_116_00006005867360583647_016_00016818127099021027_116_00003338886116348349_115_00001224744871391589_0,
  116_00007024092752447672_116_00001385492604507661_014_00000408435846029904_115_00002386223049588867_016_00017289447534495093_116_00003338886116348349_015_00000816496580927726_1,
  116_00007524053088724167_117_00020595014605633308_017_00041402228733777985_117_00032973178962396227_116_00016959837443286896_116_00003338886116348349_015_00000816496580927726_0,
  116_00007524053088724167_117_00027335103166186175_117_00016609163665609716_016_00007336246667481341_116_00016645623819637518_116_00003338886116348349_115_00001224744871391589_0,
  116_00007024092752447672_117_00020595014605633308_015_00000916043952332481_116_00013930882459960594_116_00016174303384163455_116_00003338886116348349_015_00000816496580927726_0,
  116_00007024092752447672_117_00020595014605633308_015_00002154364059319411_116_00017943548333062846_116_00015860089760514078_116_00003338886116348349_015_00000816496580927726_0,
  116_00007024092752447672_117_00027335103166186175_016_00005367386943364846_116_00010319483174168569_116_00015545876136864702_116_00003338886116348349_115_00001224744871391589_0,
  116_00007524053088724167_116_00003407519172674287_115_00001365365614143439_015_00002679767615202727_115_00001507455570139064_116_00003338886116348349_015_00000816496580927726_1,
  116_00007024092752447672_117_00027335103166186175_117_00037247832115391877_117_00008897183723782728_116_00014760342077741262_116_00003338886116348349_015_00000816496580927726_0,
  116_00007024092752447672_117_00027335103166186175_116_00005007727466525647_015_00000252104761975864_116_00014446128454091887_016_00029950108064592316_115_00001224744871391589_0,
  116_00007024092752447672_117_00027335103166186175_017_00013512136234072358_116_00005002700892308083_116_00013660594394968446_116_00003338886116348349_015_00000816496580927726_0,
  116_00007024092752447672_117_00027335103166186175_016_00004028662503378976_117_00043004843645151863_115_00001334638077131907_116_00003338886116348349_015_00000816496580927726_0,
  116_00007024092752447672_117_00027335103166186175_116_00008521879121488555_016_00008640363076239577_116_00013032167147669695_116_00003338886116348349_015_00000816496580927726_0,
  116_00007024092752447672_116_00003407519172674287_016_00002522597508394872_116_00008212833590789884_116_00012717953524020318_016_00029950108064592316_115_00001224744871391589_0,
  115_00000652413241617146_117_00027335103166186175_116_00006402232091510928_016_00010446062719135587_116_00011932419464896877_116_00003338886116348349_115_00001224744871391589_0,
  116_00007524053088724167_116_00003407519172674287_017_00012396532534084133_116_00005203334185963199_116_00011461099029422814_116_00003338886116348349_015_00000816496580927726_0,
  116_00007524053088724167_116_00004081528028729957_017_00011838730684090021_117_00020935181343089515_115_00001114688540577344_116_00003338886116348349_015_00000816496580927726_0,
  116_00007024092752447672_116_00003407519172674287_116_00009135461156482079_017_00010162979173452956_116_00010832671782124061_016_00029950108064592316_115_00001224744871391589_0,
  116_00007024092752447672_116_00003407519172674287_016_00008100616008335997_116_00012225499463892138_116_00010047137723000623_116_00003338886116348349_115_00001224744871391589_0,
  116_00007024092752447672_117_00027335103166186175_116_00007908297086495032_016_00014157778651755175_116_00009575817287526558_116_00003338886116348349_115_00001224744871391589_0,
  116_00007024092752447672_117_00027335103166186175_116_00008466098936489144_016_00017668861290719644_116_00009104496852052494_116_00003338886116348349_015_00000816496580927726_0,
  115_00000652413241617146_117_00020595014605633308_116_00012705392996444398_016_00014559045239065398_116_00008790283228403118_016_00029950108064592316_115_00001224744871391589_0,
  116_00006024172079894964_116_00001385492604507661_117_00016609163665609716_117_00037989011303774045_116_00008004749169279678_116_00003338886116348349_015_00000816496580927726_0,
  116_00006024172079894964_116_00001385492604507661_116_00003445882286542132_016_00006734346786516008_116_00007690535545630302_116_00003338886116348349_115_00001224744871391589_0,
  116_00006024172079894964_117_00007114837484523745_116_00005453968946520936_016_00001618197798310635_116_00007219215110156237_116_00003338886116348349_015_00000816496580927726_0,
  115_00000652413241617146_117_00007114837484523745_116_00007517835791499152_016_00007135613373826232_116_00006905001486506862_116_00003338886116348349_015_00000816496580927726_0,
  116_00006024172079894964_117_00007114837484523745_116_00004059464321535655_016_00004627697203137324_116_00006590787862857486_016_00029950108064592316_115_00001224744871391589_0,
  115_00000652413241617146_116_00001385492604507661_116_00005788650056517404_016_00008840996369894685_116_00005805253803734046_116_00003338886116348349_115_00001224744871391589_0,
  115_00000652413241617146_117_00020595014605633308_016_00008825758413328343_115_00001021916652734101_116_00005333933368259982_016_00029950108064592316_115_00001224744871391589_0,
  115_00000652413241617146_117_00027335103166186175_016_00011112745998304205_115_00001272708269802992_117_00045483993091365416_116_00003338886116348349_115_00001224744871391589_0,
  116_00007024092752447672_116_00003407519172674287_116_00006625352831508573_016_00010446062719135587_117_00040770788736624775_016_00029950108064592316_115_00001224744871391589_0,
  116_00007524053088724167_116_00003407519172674287_118_00021063155657627917_118_00018750184458538297_117_00032915448145390375_116_00003338886116348349_115_00001224744871391589_0,
  116_00007024092752447672_117_00027335103166186175_016_00009829801743317745_114_00000116235995829268_117_00028202243790649734_116_00003338886116348349_015_00000816496580927726_0,
  116_00007024092752447672_116_00003407519172674287_117_00031112011765456643_016_00003223264147551537_117_00025060107554155975_116_00003338886116348349_015_00000816496580927726_0,
  116_00007524053088724167_116_00004081528028729957_117_00009915541465680366_117_00024947847216191754_117_00021917971317662216_116_00003338886116348349_115_00001224744871391589_0,
  116_00007524053088724167_116_00004081528028729957_017_00019090154734013484_115_00000399953442403252_117_00017204766962921575_016_00029950108064592316_115_00001224744871391589_0,
  116_00007524053088724167_116_00004081528028729957_115_00000696003394150504_016_00006734346786516008_117_00009349426371687174_016_00029950108064592316_115_00001224744871391589_0,
  116_00007524053088724167_117_00047555368847852436_017_00028572786183913396_116_00006106184007411204_118_00014940857804527726_116_00003338886116348349_015_00000816496580927726_0,
  116_00007524053088724167_117_00047555368847852436_016_00004698024723371911_116_00006908717182031652_018_00016480504560409875_116_00003338886116348349_015_00000816496580927726_0,
  116_00008024013425000663_117_00047555368847852436_015_00000865841785833011_116_00009115683412237894_017_00004790186692534748_016_00029950108064592316_115_00001224744871391589_0,
  116_00008024013425000663_116_00005429545740840913_016_00003247739913387218_116_00006507450594721428_017_00012645527283769148_116_00003338886116348349_115_00001224744871391589_0,
  116_00007524053088724167_117_00047555368847852436_117_00037805633965385993_016_00004728013849964882_016_00001735873163850979_116_00003338886116348349_015_00000816496580927726_0,
  116_00007524053088724167_117_00047555368847852436_017_00006818514034143008_115_00000530365083279075_016_00002050086787500355_116_00003338886116348349_115_00001224744871391589_0]

/-- lr/data.csv 9802-9901 -/
def dataCsv98 : List ℕ := [
  116_00007524053088724167_117_00047555368847852436_116_00006569572646509162_015_00001034574607230803_016_00002521407222974419_016_00029950108064592316_115_00001224744871391589_0,
  116_00008024013425000663_117_00047555368847852436_116_00002386058771553318_016_00005630863671412888_016_00003306941282097859_116_00003338886116348349_115_00001224744871391589_0,
  116_00008024013425000663_117_00047555368847852436_015_00002483467150815937_116_00020852731091061982_016_00003778261717571923_016_00029950108064592316_115_00001224744871391589_0,
  116_00008024013425000663_116_00005429545740840913_016_00008546857488331286_115_00001021916652734101_016_00004563795776695363_116_00003338886116348349_015_00000816496580927726_0,
  116_00008024013425000663_114_00000061035545968962_116_00004003684136536244_015_00000252104761975864_017_00048780094003447394_116_00003338886116348349_015_00000816496580927726_0,
  116_00008024013425000663_116_00005429545740840913_016_00006259869903355426_116_00011523282936099244_016_00005192223023994115_116_00003338886116348349_015_00000816496580927726_0,
  116_00008523973761276875_114_00000061035545968962_116_00006792693386506806_016_00020578044048718778_016_00005506436647643491_116_00003338886116348349_015_00000816496580927726_0,
  116_00009023934097553371_115_00000677756345295187_116_00007015814126504452_015_00001506062847320318_016_00005820650271292868_116_00003338886116348349_015_00000816496580927726_0,
  116_00009023934097553371_115_00000677756345295187_116_00005453968946520936_017_00042264306158271003_016_00006134863894942243_116_00003338886116348349_115_00001224744871391589_0,
  116_00009023934097553371_115_00000677756345295187_116_00010362625226469127_015_00001034574607230803_016_00006606184330416307_116_00003338886116348349_115_00001224744871391589_0,
  116_00009523894433829583_115_00000677756345295187_117_00020513776615568505_016_00000915981270517738_016_00007077504765890371_116_00003338886116348349_015_00000816496580927726_0,
  116_00009023934097553371_115_00000677756345295187_016_00003972882318379565_116_00008313150237617443_016_00007391718389539748_116_00003338886116348349_015_00000816496580927726_0,
  116_00009023934097553371_114_00000061035545968962_116_00007127374496503274_016_00005831496965067996_016_00007705932013189124_116_00003338886116348349_115_00001224744871391589_0,
  116_00008523973761276875_114_00000061035545968962_116_00008466098936489144_016_00012352079008859156_016_00008177252448663187_116_00003338886116348349_015_00000816496580927726_0,
  116_00008523973761276875_114_00000061035545968962_115_00000606755098151446_016_00000915981270517738_016_00008491466072312563_016_00029950108064592316_115_00001224744871391589_0,
  116_00008024013425000663_114_00000061035545968962_017_00020763560283995822_116_00001190668312860946_016_00009277000131436004_116_00003338886116348349_115_00001224744871391589_0,
  116_00007524053088724167_116_00005429545740840913_016_00010164482853314214_116_00010620433114651238_016_00009748320566910068_116_00003338886116348349_115_00001224744871391589_0,
  116_00007524053088724167_117_00047555368847852436_116_00004115244506535067_017_00024207309729310825_016_00010219641002384132_116_00003338886116348349_115_00001224744871391589_0,
  116_00007024092752447672_116_00004081528028729957_116_00007350495236500919_016_00005129280437275106_016_00010690961437858195_116_00003338886116348349_115_00001224744871391589_0,
  116_00007024092752447672_116_00004081528028729957_116_00004171024691534478_117_00030966846025845146_015_00001116228187333226_116_00003338886116348349_115_00001224744871391589_0,
  116_00007024092752447672_116_00003407519172674287_016_00001630114548404292_117_00032973178962396227_016_00011633602308806323_116_00003338886116348349_115_00001224744871391589_0,
  116_00007024092752447672_116_00004081528028729957_016_00007152352863346005_117_00044008010113427437_016_00012104922744280389_116_00003338886116348349_015_00000816496580927726_0,
  116_00007524053088724167_116_00004081528028729957_116_00009972163931473248_013_00000020979310636029_016_00012419136367929764_116_00003338886116348349_015_00000816496580927726_1,
  116_00007524053088724167_117_00047555368847852436_116_00002832300251548608_016_00003724847381689319_015_00001273334999157914_116_00003338886116348349_115_00001224744871391589_0,
  116_00008024013425000663_117_00047555368847852436_117_00019398172915580278_117_00006890850787231645_016_00013204670427053204_116_00003338886116348349_015_00000816496580927726_0,
  116_00008024013425000663_116_00005429545740840913_016_00003972882318379565_116_00007610933709824549_015_00001351888405070258_116_00003338886116348349_015_00000816496580927726_0,
  116_00008024013425000663_116_00005429545740840913_116_00010808866706464417_016_00012753345596169388_016_00013833097674351955_116_00003338886116348349_015_00000816496580927726_0,
  116_00008523973761276875_117_00047555368847852436_116_00009079680971482668_016_00017066961409754307_016_00014147311298001333_116_00003338886116348349_115_00001224744871391589_0,
  116_00008024013425000663_116_00004081528028729957_116_00008577659306487967_016_00010044796131825364_016_00014618631733475396_116_00003338886116348349_015_00000816496580927726_0,
  116_00008024013425000663_116_00004081528028729957_116_00006123331166513871_017_00018188310919657433_016_00014932845357124773_116_00003338886116348349_115_00001224744871391589_0,
  116_00008523973761276875_117_00047555368847852436_116_00011255108186459706_014_00000161641115883063_016_00015404165792598836_116_00003338886116348349_015_00000816496580927726_1,
  116_00008024013425000663_117_00047555368847852436_018_00017982973841959956_117_00046014343049978595_016_00015718379416248212_116_00003338886116348349_015_00000816496580927726_0,
  116_00008024013425000663_116_00005429545740840913_015_00003230921629808048_116_00022357480793475326_015_00001603259303989759_116_00003338886116348349_015_00000816496580927726_0,
  116_00008523973761276875_114_00000061035545968962_116_00008521879121488555_016_00005329913730930215_016_00016346806663546964_116_00003338886116348349_015_00000816496580927726_0,
  116_00008523973761276875_114_00000061035545968962_016_00005200046388366611_116_00007309983769341876_116_00016959837443286896_116_00003338886116348349_115_00001224744871391589_0,
  116_00008024013425000663_117_00047555368847852436_018_00034717029341783334_117_00030966846025845146_115_00001648851700781283_116_00003338886116348349_015_00000816496580927726_0,
  116_00008024013425000663_117_00047555368847852436_115_00000829875838149091_016_00013656195417617392_116_00016174303384163455_116_00003338886116348349_115_00001224744871391589_0,
  116_00008024013425000663_117_00047555368847852436_116_00010251064856470304_016_00010646696012790704_115_00001570298294868939_116_00003338886116348349_115_00001224744871391589_0,
  116_00008024013425000663_116_00005429545740840913_116_00006346451906511517_016_00005530547024585329_116_00015231662513215327_116_00003338886116348349_015_00000816496580927726_0,
  116_00008024013425000663_116_00005429545740840913_116_00002664959696550374_016_00011248595893756042_115_00001491744888956595_116_00003338886116348349_115_00001224744871391589_0,
  116_00008523973761276875_116_00005429545740840913_117_00029438606215474306_017_00024207309729310825_116_00014446128454091887_016_00029950108064592316_115_00001224744871391589_0,
  116_00008523973761276875_116_00005429545740840913_116_00010027944116472658_016_00011449229187411152_116_00013660594394968446_116_00003338886116348349_115_00001224744871391589_0,
  116_00008024013425000663_117_00047555368847852436_116_00008019857456493854_016_00007637196607964014_116_00013189273959494383_116_00003338886116348349_015_00000816496580927726_0,
  116_00008523973761276875_116_00005429545740840913_116_00008689219676486789_016_00012151445715204048_116_00012875060335845006_116_00003338886116348349_015_00000816496580927726_0,
  116_00008523973761276875_114_00000061035545968962_117_00030554209915462527_117_00029963679557569567_115_00001256084671219563_016_00029950108064592316_115_00001224744871391589_0,
  116_00008523973761276875_114_00000061035545968962_116_00006569572646509162_016_00007436563314308898_115_00001177531265307219_116_00003338886116348349_015_00000816496580927726_0,
  116_00008523973761276875_115_00000677756345295187_116_00011143547816460884_016_00018872661052650317_116_00011461099029422814_116_00003338886116348349_015_00000816496580927726_0,
  116_00008024013425000663_114_00000061035545968962_116_00009860603561474425_016_00006132446905550669_115_00001114688540577344_116_00003338886116348349_015_00000816496580927726_0,
  116_00007524053088724167_116_00005429545740840913_016_00001630114548404292_017_00006150313300350718_116_00010832671782124061_016_00029950108064592316_115_00001224744871391589_0,
  116_00007024092752447672_116_00004081528028729957_015_00004313057218796626_116_00024564447023681564_116_00010047137723000623_116_00003338886116348349_015_00000816496580927726_0,
  116_00007524053088724167_117_00047555368847852436_117_00022744984015544953_116_00005403967479618307_116_00009732924099351247_116_00003338886116348349_115_00001224744871391589_0,
  116_00007524053088724167_117_00047555368847852436_016_00012395690253290663_116_00012827399344857475_116_00009261603663877183_116_00003338886116348349_115_00001224744871391589_0,
  116_00007024092752447672_116_00004081528028729957_116_00012426492071447344_016_00011449229187411152_116_00008790283228403118_116_00003338886116348349_015_00000816496580927726_0,
  116_00007024092752447672_116_00004081528028729957_117_00007684334065703917_117_00021938347811365091_116_00008476069604753742_116_00003338886116348349_015_00000816496580927726_0,
  116_00007024092752447672_116_00004081528028729957_116_00009860603561474425_016_00005329913730930215_116_00008161855981104366_016_00029950108064592316_115_00001224744871391589_0,
  115_00000652413241617146_117_00027335103166186175_117_00012704550715650928_117_00014916182533436123_116_00007376321921980926_116_00003338886116348349_015_00000816496580927726_0,
  116_00007024092752447672_116_00003407519172674287_117_00049519472815262355_017_00042264306158271003_115_00000706210829833155_116_00003338886116348349_015_00000816496580927726_0,
  116_00007024092752447672_116_00003407519172674287_115_00000963748282147678_015_00001506062847320318_116_00006747894674682174_116_00003338886116348349_115_00001224744871391589_0,
  116_00007524053088724167_116_00003407519172674287_017_00004587306634166558_116_00006908717182031652_115_00000627657423920811_116_00003338886116348349_015_00000816496580927726_0,
  116_00007024092752447672_116_00003407519172674287_016_00002299476768397227_116_00006106184007411204_116_00005962360615558734_116_00003338886116348349_115_00001224744871391589_0,
  115_00000652413241617146_117_00027335103166186175_016_00012061009143294195_116_00013128349285340146_115_00000549104018008467_016_00029950108064592316_115_00001224744871391589_0,
  115_00000652413241617146_117_00027335103166186175_016_00014571117468267702_116_00015234998868718825_115_00000470550612096123_116_00003338886116348349_115_00001224744871391589_0,
  116_00006024172079894964_117_00020595014605633308_115_00000556552931651976_016_00005831496965067996_117_00042341856854871657_116_00003338886116348349_115_00001224744871391589_0,
  116_00005524211743618752_116_00001385492604507661_116_00007127374496503274_016_00016364744881961408_117_00037628652500131016_116_00003338886116348349_015_00000816496580927726_0,
  116_00005524211743618752_117_00007114837484523745_016_00005925188793358959_116_00008614100178100111_117_00034486516263637257_116_00003338886116348349_115_00001224744871391589_0,
  116_00005524211743618752_116_00001385492604507661_015_00005082823771788501_115_00002616951337292247_117_00029773311908896616_116_00003338886116348349_115_00001224744871391589_0,
  116_00005024251407342256_117_00007114837484523745_016_00005088486018367789_116_00006005867360583647_117_00025060107554155975_116_00003338886116348349_015_00000816496580927726_0,
  116_00005024251407342256_117_00007114837484523745_116_00007127374496503274_016_00004728013849964882_117_00021917971317662216_116_00003338886116348349_015_00000816496580927726_0,
  116_00005524211743618752_117_00007114837484523745_117_00007126532215709803_117_00046014343049978595_117_00018775835081168454_116_00003338886116348349_015_00000816496580927726_0,
  116_00005524211743618752_117_00007114837484523745_017_00028572786183913396_116_00008714416824927665_117_00015633698844674693_116_00003338886116348349_015_00000816496580927726_0,
  116_00005024251407342256_117_00007114837484523745_016_00019256653008218247_116_00014432465694098375_117_00012491562608180934_016_00029950108064592316_115_00001224744871391589_0,
  116_00005524211743618752_116_00001385492604507661_016_00022770804663181154_116_00018344814920373074_118_00046362220169465326_116_00003338886116348349_115_00001224744871391589_0,
  116_00005524211743618752_117_00007114837484523745_116_00009247021526480902_016_00012151445715204048_019_00007698233779410749_116_00003338886116348349_015_00000816496580927726_0,
  116_00005524211743618752_116_00001385492604507661_016_00004307563428376032_117_00034979511898947385_017_00003219118574287868_116_00003338886116348349_015_00000816496580927726_0,
  116_00005524211743618752_117_00007114837484523745_116_00005007727466525647_016_00004126113968999543_017_00006361254810781627_116_00003338886116348349_115_00001224744871391589_0,
  116_00005524211743618752_116_00001385492604507661_116_00009804823376475014_016_00010646696012790704_017_00011074459165522269_116_00003338886116348349_115_00001224744871391589_0,
  116_00006024172079894964_117_00020595014605633308_117_00043383652465327116_016_00015160945120030738_016_00001578766352026291_016_00029950108064592316_115_00001224744871391589_0,
  116_00006024172079894964_117_00020595014605633308_115_00000919124134148149_016_00018672027758995209_016_00002364300411149731_116_00003338886116348349_015_00000816496580927726_0,
  115_00000652413241617146_117_00020595014605633308_116_00013709436326433802_015_00001917361099313299_016_00002678514034799107_116_00003338886116348349_015_00000816496580927726_0,
  116_00006024172079894964_116_00001385492604507661_116_00002720739881549785_117_00013913016065160544_016_00002992727658448483_116_00003338886116348349_115_00001224744871391589_0,
  116_00006024172079894964_116_00001385492604507661_016_00011949448773295372_116_00012526449404374806_016_00003464048093922547_116_00003338886116348349_015_00000816496580927726_0,
  116_00006024172079894964_116_00001385492604507661_117_00025533993265515514_117_00014916182533436123_016_00003778261717571923_116_00003338886116348349_015_00000816496580927726_0,
  116_00006024172079894964_116_00001385492604507661_015_00001987023504321177_116_00018043864979890403_016_00004092475341221299_116_00003338886116348349_015_00000816496580927726_0,
  115_00000652413241617146_117_00027335103166186175_016_00006427210458353659_115_00000570491742010098_017_00044066889648706753_016_00029950108064592316_115_00001224744871391589_0,
  115_00000652413241617146_116_00003407519172674287_016_00007487033973342473_116_00009216000059065448_016_00005192223023994115_116_00003338886116348349_015_00000816496580927726_0,
  116_00006024172079894964_117_00027335103166186175_017_00041402228733777985_116_00012325816110719694_016_00005506436647643491_116_00003338886116348349_015_00000816496580927726_0,
  116_00006024172079894964_117_00027335103166186175_015_00002031647652320706_116_00017742915039407734_016_00005820650271292868_116_00003338886116348349_015_00000816496580927726_0,
  116_00006024172079894964_116_00003407519172674287_116_00009525922451477957_016_00004728013849964882_016_00006134863894942243_116_00003338886116348349_015_00000816496580927726_0,
  116_00006024172079894964_117_00027335103166186175_017_00020205758434001708_116_00005604600773273423_016_00006449077518591619_116_00003338886116348349_115_00001224744871391589_0,
  116_00006024172079894964_117_00027335103166186175_117_00012704550715650928_018_00021376474272484798_016_00006920397954065683_016_00029950108064592316_115_00001224744871391589_0,
  116_00006024172079894964_116_00003407519172674287_016_00005925188793358959_116_00007209667122514325_016_00007705932013189124_116_00003338886116348349_015_00000816496580927726_0,
  116_00006024172079894964_116_00003407519172674287_115_00000919124134148149_016_00008138779842101795_016_00008020145636838499_116_00003338886116348349_015_00000816496580927726_0,
  116_00005524211743618752_117_00020595014605633308_116_00007350495236500919_016_00008640363076239577_016_00008334359260487876_016_00029950108064592316_115_00001224744871391589_0,
  116_00005524211743618752_117_00027335103166186175_116_00014211457991428502_016_00015361578413685846_016_00009119893319611315_116_00003338886116348349_115_00001224744871391589_0,
  116_00005524211743618752_116_00003407519172674287_016_00005925188793358959_116_00008915050118582778_016_00009591213755085379_116_00003338886116348349_015_00000816496580927726_0,
  116_00006024172079894964_116_00004081528028729957_116_00008466098936489144_016_00014157778651755175_016_00009905427378734756_116_00003338886116348349_015_00000816496580927726_0,
  116_00006024172079894964_117_00047555368847852436_017_00044191237983748544_117_00049023842454805255_016_00010219641002384132_116_00003338886116348349_115_00001224744871391589_0,
  116_00006024172079894964_117_00047555368847852436_116_00010139504486471482_016_00007135613373826232_016_00010690961437858195_116_00003338886116348349_015_00000816496580927726_0,
  115_00000652413241617146_116_00005429545740840913_116_00007964077271494443_016_00004828330496792433_016_00011005175061507573_116_00003338886116348349_015_00000816496580927726_0,
  115_00000652413241617146_116_00005429545740840913_016_00002634157878393695_116_00008614100178100111_016_00011319388685156948_116_00003338886116348349_015_00000816496580927726_0]

/-- lr/data.csv 9902-10001 -/
def dataCsv99 : List ℕ := [
  115_00000652413241617146_116_00005429545740840913_116_00005007727466525647_017_00023204143261035248_016_00011633602308806323_016_00029950108064592316_115_00001224744871391589_0,
  115_00000652413241617146_116_00005429545740840913_116_00006458012276510339_016_00008941313016722243_016_00012419136367929764_116_00003338886116348349_115_00001224744871391589_0,
  115_00000652413241617146_117_00047555368847852436_116_00007629396161497976_016_00005329913730930215_016_00012890456803403827_016_00029950108064592316_115_00001224744871391589_0,
  115_00000652413241617146_116_00005429545740840913_116_00005677089686518582_016_00005731180318240445_016_00013675990862527267_116_00003338886116348349_115_00001224744871391589_0,
  116_00007024092752447672_114_00000061035545968962_118_00009907118657745668_117_00043004843645151863_016_00014147311298001333_116_00003338886116348349_015_00000816496580927726_0,
  115_00000652413241617146_114_00000061035545968962_116_00006458012276510339_016_00009543212897687582_016_00014461524921650708_116_00003338886116348349_115_00001224744871391589_0,
  116_00007024092752447672_114_00000061035545968962_016_00002689938063393106_117_00026954180152742907_016_00014932845357124773_116_00003338886116348349_115_00001224744871391589_0,
  116_00007024092752447672_114_00000061035545968962_116_00002888080436548019_016_00003223264147551537_016_00015404165792598836_116_00003338886116348349_115_00001224744871391589_0,
  116_00007024092752447672_115_00000677756345295187_116_00004617266171529768_016_00007737513254791571_116_00016959837443286896_116_00003338886116348349_015_00000816496580927726_0,
  115_00000652413241617146_114_00000061035545968962_016_00003805541763381331_116_00007309983769341876_116_00016645623819637518_116_00003338886116348349_015_00000816496580927726_0,
  116_00007024092752447672_115_00000677756345295187_117_00038921237665374214_016_00006032130258723112_116_00016331410195988143_116_00003338886116348349_015_00000816496580927726_0,
  116_00007024092752447672_115_00000677756345295187_117_00032227615465444864_017_00008156646236901802_116_00016017196572338768_116_00003338886116348349_115_00001224744871391589_0,
  116_00007024092752447672_116_00007451572309007539_116_00011812910036453819_016_00018872661052650317_116_00015545876136864702_116_00003338886116348349_015_00000816496580927726_0,
  116_00007524053088724167_116_00008125581165062826_017_00028014984333919285_116_00009416633352720559_116_00015231662513215327_116_00003338886116348349_015_00000816496580927726_0,
  116_00007524053088724167_116_00008125581165062826_015_00000731969341834424_116_00010419799820996123_115_00001491744888956595_116_00003338886116348349_015_00000816496580927726_0,
  116_00007524053088724167_116_00008799590021118496_016_00006873451938348949_116_00011723916229754356_116_00014603235265916574_116_00003338886116348349_115_00001224744871391589_0,
  116_00007524053088724167_116_00008125581165062826_017_00007934117734131232_116_00005103017539135641_116_00014131914830442511_116_00003338886116348349_115_00001224744871391589_0,
  116_00007524053088724167_116_00008125581165062826_017_00010165325134107683_115_00000399953442403252_116_00013660594394968446_116_00003338886116348349_115_00001224744871391589_0,
  116_00008024013425000663_116_00008125581165062826_116_00010418405411468539_015_00001676601146927164_116_00013189273959494383_116_00003338886116348349_015_00000816496580927726_0,
  116_00007524053088724167_116_00008125581165062826_116_00013040074106440867_016_00018772344405822765_116_00012875060335845006_116_00003338886116348349_015_00000816496580927726_0,
  116_00007524053088724167_116_00008799590021118496_117_00049519472815262355_016_00003925480675344427_115_00001256084671219563_016_00029950108064592316_115_00001224744871391589_0,
  116_00007524053088724167_116_00008799590021118496_116_00010697306336465593_016_00008540046429412019_115_00001177531265307219_116_00003338886116348349_115_00001224744871391589_0,
  116_00007024092752447672_116_00008125581165062826_017_00015185541784054696_117_00008897183723782728_116_00011303992217598127_016_00029950108064592316_115_00001224744871391589_0,
  116_00007524053088724167_116_00008799590021118496_017_00042517832433766206_116_00006708083888376544_116_00010518458158474686_116_00003338886116348349_115_00001224744871391589_0,
  116_00007524053088724167_116_00009473598877173782_116_00008633439491487378_015_00001445872859223784_116_00010047137723000623_116_00003338886116348349_115_00001224744871391589_0,
  116_00007524053088724167_116_00008799590021118496_116_00009581702636477369_016_00007336246667481341_116_00009575817287526558_116_00003338886116348349_115_00001224744871391589_0,
  116_00007524053088724167_116_00009473598877173782_016_00019981795413210592_116_00019849564622786418_116_00009104496852052494_116_00003338886116348349_115_00001224744871391589_0,
  116_00007524053088724167_116_00009473598877173782_117_00009357739615686254_117_00030966846025845146_115_00000863317641657843_116_00003338886116348349_015_00000816496580927726_0,
  116_00008024013425000663_116_00010147607733229451_017_00020763560283995822_116_00012626766051202365_116_00008318962792929054_116_00003338886116348349_115_00001224744871391589_0,
  116_00008024013425000663_116_00010821616589285121_116_00003334321916543309_117_00007894017255507152_115_00000784764235745499_016_00029950108064592316_115_00001224744871391589_0,
  116_00008523973761276875_115_00001149562544534041_116_00004840386911527413_016_00005530547024585329_115_00000706210829833155_116_00003338886116348349_015_00000816496580927726_0,
  116_00008523973761276875_115_00001149562544534041_116_00005955990611515638_016_00006934980080171117_116_00006747894674682174_116_00003338886116348349_015_00000816496580927726_0,
  116_00008523973761276875_115_00001216963430139608_016_00006929232123348361_114_00000116235995829268_116_00006433681051032798_116_00003338886116348349_015_00000816496580927726_0,
  116_00008523973761276875_115_00001149562544534041_016_00003247739913387218_116_00007610933709824549_116_00006119467427383422_116_00003338886116348349_015_00000816496580927726_0,
  116_00008523973761276875_115_00001216963430139608_117_00037247832115391877_016_00004326747262654651_116_00005805253803734046_116_00003338886116348349_015_00000816496580927726_0,
  116_00008024013425000663_115_00001149562544534041_116_00004840386911527413_016_00008540046429412019_115_00000549104018008467_116_00003338886116348349_015_00000816496580927726_0,
  116_00008523973761276875_115_00001216963430139608_117_00002664117415756904_116_00006808400535204094_116_00005176826556435293_016_00029950108064592316_115_00001224744871391589_0,
  116_00008523973761276875_116_00012843643157451365_117_00018840371065586167_016_00006132446905550669_116_00004391292497311854_116_00003338886116348349_015_00000816496580927726_0,
  116_00008523973761276875_116_00012843643157451365_118_00060109285157215794_116_00006106184007411204_117_00040770788736624775_116_00003338886116348349_015_00000816496580927726_0,
  116_00008523973761276875_116_00012843643157451365_015_00006120335212777551_116_00027272996488025583_117_00037628652500131016_016_00029950108064592316_115_00001224744871391589_0,
  116_00008523973761276875_116_00012843643157451365_016_00010220263038313624_116_00011422966289271685_117_00029773311908896616_116_00003338886116348349_115_00001224744871391589_0,
  116_00008024013425000663_116_00012843643157451365_116_00008019857456493854_016_00004025797322171985_117_00025060107554155975_116_00003338886116348349_015_00000816496580927726_0,
  116_00008024013425000663_116_00012843643157451365_116_00009135461156482079_016_00010847329306445812_117_00021917971317662216_116_00003338886116348349_015_00000816496580927726_0,
  116_00008523973761276875_116_00013517652013507035_015_00001267459117828772_115_00001403119910678815_117_00018775835081168454_116_00003338886116348349_115_00001224744871391589_0,
  116_00008523973761276875_116_00014191660869562706_116_00007796736716496209_016_00007837829901619122_117_00014062630726427813_116_00003338886116348349_015_00000816496580927726_0,
  116_00008523973761276875_116_00013517652013507035_017_00021879163983984046_117_00021938347811365091_117_00010920494489934053_116_00003338886116348349_015_00000816496580927726_0,
  116_00008523973761276875_116_00014191660869562706_117_00020513776615568505_017_00020194643856208588_117_00007778358253440293_116_00003338886116348349_015_00000816496580927726_0,
  116_00009023934097553371_116_00014191660869562706_117_00005453126665727467_117_00033976345430671806_118_00046362220169465326_116_00003338886116348349_115_00001224744871391589_0,
  116_00009023934097553371_116_00014865669725617991_016_00014794238208265347_116_00014934048928236157_019_00007698233779410749_116_00003338886116348349_015_00000816496580927726_0,
  116_00009023934097553371_116_00014865669725617991_116_00007127374496503274_016_00013455562123962277_017_00003219118574287868_116_00003338886116348349_115_00001224744871391589_0,
  116_00009523894433829583_116_00014865669725617991_116_00007015814126504452_016_00014157778651755175_017_00007932322929028508_116_00003338886116348349_015_00000816496580927726_0,
  116_00009023934097553371_116_00014865669725617991_116_00010251064856470304_016_00019474560933615657_017_00011074459165522269_116_00003338886116348349_015_00000816496580927726_0,
  116_00009023934097553371_116_00014865669725617991_116_00006123331166513871_016_00006934980080171117_016_00001421659540201603_116_00003338886116348349_015_00000816496580927726_0,
  116_00009523894433829583_116_00014865669725617991_017_00014627739934060582_116_00004701750951825417_016_00001735873163850979_116_00003338886116348349_015_00000816496580927726_0,
  116_00009523894433829583_116_00014191660869562706_116_00005175068021523881_017_00028219975602413067_016_00002050086787500355_116_00003338886116348349_115_00001224744871391589_0,
  116_00009023934097553371_116_00014191660869562706_117_00042825850615333005_116_00001190668312860946_016_00002521407222974419_116_00003338886116348349_115_00001224744871391589_0,
  116_00009023934097553371_116_00014865669725617991_017_00021879163983984046_116_00005504284126445864_016_00002992727658448483_116_00003338886116348349_115_00001224744871391589_0,
  116_00009523894433829583_116_00014865669725617991_017_00037497615783819194_116_00007009033828859209_016_00003464048093922547_116_00003338886116348349_015_00000816496580927726_0,
  116_00009523894433829583_116_00014865669725617991_117_00007684334065703917_117_00040998510708600777_016_00003778261717571923_116_00003338886116348349_115_00001224744871391589_0,
  116_00009523894433829583_116_00014865669725617991_116_00008912340416484434_016_00009141946310377358_016_00004249582153045987_116_00003338886116348349_015_00000816496580927726_0,
  116_00009023934097553371_116_00014865669725617991_017_00020205758434001708_116_00005002700892308083_016_00004563795776695363_116_00003338886116348349_015_00000816496580927726_0,
  116_00009023934097553371_116_00014191660869562706_116_00007796736716496209_015_00001496031182637562_017_00048780094003447394_116_00003338886116348349_015_00000816496580927726_0,
  116_00009023934097553371_116_00014191660869562706_116_00006123331166513871_016_00009442896250860024_016_00005192223023994115_116_00003338886116348349_015_00000816496580927726_0,
  116_00008523973761276875_116_00014191660869562706_116_00005788650056517404_118_00008718519775782523_016_00005506436647643491_116_00003338886116348349_015_00000816496580927726_0,
  116_00008523973761276875_116_00014191660869562706_015_00001267459117828772_115_00001352961587265037_016_00005820650271292868_116_00003338886116348349_015_00000816496580927726_0,
  116_00008523973761276875_116_00014191660869562706_015_00000916043952332481_115_00001112201634878902_016_00006134863894942243_116_00003338886116348349_015_00000816496580927726_0,
  116_00008523973761276875_116_00014191660869562706_116_00001772476736559794_017_00012169312110004112_016_00006449077518591619_116_00003338886116348349_015_00000816496580927726_0,
  116_00008523973761276875_116_00014191660869562706_016_00003917102133380153_116_00007610933709824549_016_00006763291142240996_116_00003338886116348349_115_00001224744871391589_0,
  116_00008024013425000663_116_00013517652013507035_017_00036939813933825083_116_00007610933709824549_015_00000723461157771506_116_00003338886116348349_015_00000816496580927726_0,
  116_00008024013425000663_116_00012843643157451365_116_00002664959696550374_016_00010044796131825364_016_00007548825201364435_116_00003338886116348349_015_00000816496580927726_0,
  116_00008024013425000663_116_00012843643157451365_016_00019647114303214126_116_00015335315515546384_016_00007863038825013812_016_00029950108064592316_115_00001224744871391589_0,
  116_00007524053088724167_115_00001216963430139608_017_00013512136234072358_016_00004627697203137324_016_00008648572884137251_016_00029950108064592316_115_00001224744871391589_0,
  116_00007024092752447672_115_00001216963430139608_115_00000829875838149091_016_00011449229187411152_016_00009434106943260692_116_00003338886116348349_015_00000816496580927726_0,
  116_00007524053088724167_115_00001216963430139608_116_00005286628391522703_017_00005147146832075141_016_00009748320566910068_116_00003338886116348349_015_00000816496580927726_0,
  116_00007024092752447672_115_00001216963430139608_116_00009916383746473837_016_00028302425854440614_016_00010062534190559445_116_00003338886116348349_015_00000816496580927726_1,
  116_00007024092752447672_115_00001149562544534041_017_00028014984333919285_116_00005905550713756088_015_00001037674781420882_116_00003338886116348349_115_00001224744871391589_0,
  116_00007024092752447672_115_00001216963430139608_016_00009271999893323634_116_00013730249166305482_016_00010848068249682883_116_00003338886116348349_015_00000816496580927726_0,
  116_00007024092752447672_115_00001149562544534041_115_00000651379246150975_017_00004143980363799563_015_00001116228187333226_116_00003338886116348349_015_00000816496580927726_0,
  116_00007024092752447672_115_00001149562544534041_116_00009023900786483257_016_00012151445715204048_016_00011476495496981636_016_00029950108064592316_115_00001224744871391589_0,
  116_00007524053088724167_115_00001149562544534041_115_00001142244874145794_016_00009844162838170248_016_00012262029556105076_116_00003338886116348349_015_00000816496580927726_0,
  116_00007024092752447672_116_00010821616589285121_017_00011280928834095907_117_00033976345430671806_016_00012576243179754452_116_00003338886116348349_015_00000816496580927726_0,
  115_00000652413241617146_116_00010147607733229451_116_00010362625226469127_016_00007035296726998674_016_00012890456803403827_116_00003338886116348349_015_00000816496580927726_0,
  115_00000652413241617146_116_00010821616589285121_116_00001772476736559794_016_00005731180318240445_016_00013204670427053204_116_00003338886116348349_115_00001224744871391589_0,
  115_00000652413241617146_116_00010821616589285121_015_00000865841785833011_116_00011322649642444131_016_00013675990862527267_116_00003338886116348349_015_00000816496580927726_0,
  115_00000652413241617146_116_00010821616589285121_116_00005955990611515638_017_00028219975602413067_016_00013990204486176645_016_00029950108064592316_115_00001224744871391589_0,
  115_00000652413241617146_116_00010147607733229451_016_00001853235288401937_117_00044008010113427437_016_00014775738545300083_016_00029950108064592316_115_00001224744871391589_0,
  116_00006024172079894964_116_00009473598877173782_116_00001772476736559794_017_00023204143261035248_016_00015561272604423524_116_00003338886116348349_115_00001224744871391589_0,
  116_00006024172079894964_116_00009473598877173782_116_00002162938031555673_117_00028960513089293993_015_00001603259303989759_116_00003338886116348349_115_00001224744871391589_0,
  116_00005524211743618752_116_00009473598877173782_016_00012953492103284776_115_00001593721539651172_016_00016503913475371652_116_00003338886116348349_015_00000816496580927726_0,
  116_00006024172079894964_116_00010147607733229451_017_00021321362133989932_116_00006808400535204094_116_00016959837443286896_116_00003338886116348349_115_00001224744871391589_0,
  116_00006024172079894964_116_00010147607733229451_117_00006568730365715691_117_00037989011303774045_115_00001648851700781283_116_00003338886116348349_015_00000816496580927726_0,
  116_00005524211743618752_116_00010821616589285121_016_00016077182463251805_116_00013930882459960594_116_00016174303384163455_116_00003338886116348349_115_00001224744871391589_0,
  116_00006024172079894964_116_00010821616589285121_117_00030554209915462527_117_00007894017255507152_115_00001570298294868939_116_00003338886116348349_015_00000816496580927726_0,
  116_00006024172079894964_116_00010821616589285121_116_00007685176346497387_016_00007336246667481341_116_00015388769325040015_116_00003338886116348349_015_00000816496580927726_0,
  116_00006024172079894964_115_00001149562544534041_016_00005311606758365435_116_00012125182817064584_115_00001507455570139064_116_00003338886116348349_015_00000816496580927726_0,
  116_00006024172079894964_116_00010821616589285121_016_00003638201208383097_116_00010520116467823681_116_00014760342077741262_116_00003338886116348349_115_00001224744871391589_0,
  116_00005524211743618752_116_00010821616589285121_016_00005200046388366611_116_00008212833590789884_114_00000142890216422672_016_00029950108064592316_115_00001224744871391589_0,
  116_00005024251407342256_116_00009473598877173782_016_00005925188793358959_116_00006607767241548985_116_00013503487583143758_116_00003338886116348349_115_00001224744871391589_0,
  116_00005024251407342256_116_00008799590021118496_116_00007294715051501508_016_00008540046429412019_116_00013032167147669695_016_00029950108064592316_115_00001224744871391589_0,
  116_00005024251407342256_116_00008799590021118496_116_00002162938031555673_018_00021376474272484798_116_00012246633088546255_116_00003338886116348349_115_00001224744871391589_0]

/-- lr/data.csv 2-1001 -/
def dataBlk0 : List ℕ :=
  dataCsv0 ++ (dataCsv1 ++ (dataCsv2 ++ (dataCsv3 ++ (dataCsv4 ++ (
  dataCsv5 ++ (dataCsv6 ++ (dataCsv7 ++ (dataCsv8 ++ (dataCsv9)))))))))

/-- lr/data.csv 1002-2001 -/
def dataBlk1 : List ℕ :=
  dataCsv10 ++ (dataCsv11 ++ (dataCsv12 ++ (dataCsv13 ++ (dataCsv14 ++ (
  dataCsv15 ++ (dataCsv16 ++ (dataCsv17 ++ (dataCsv18 ++ (dataCsv19)))))))))

/-- lr/data.csv 2002-3001 -/
def dataBlk2 : List ℕ :=
  dataCsv20 ++ (dataCsv21 ++ (dataCsv22 ++ (dataCsv23 ++ (dataCsv24 ++ (
  dataCsv25 ++ (dataCsv26 ++ (dataCsv27 ++ (dataCsv28 ++ (dataCsv29)))))))))

/-- lr/data.csv 3002-4001 -/
def dataBlk3 : List ℕ :=
  dataCsv30 ++ (dataCsv31 ++ (dataCsv32 ++ (dataCsv33 ++ (dataCsv34 ++ (
  dataCsv35 ++ (dataCsv36 ++ (dataCsv37 ++ (dataCsv38 ++ (dataCsv39)))))))))

/-- lr/data.csv 4002-5001 -/
def dataBlk4 : List ℕ :=
  dataCsv40 ++ (dataCsv41 ++ (dataCsv42 ++ (dataCsv43 ++ (dataCsv44 ++ (
  dataCsv45 ++ (dataCsv46 ++ (dataCsv47 ++ (dataCsv48 ++ (dataCsv49)))))))))

/-- lr/data.csv 5002-6001 -/
def dataBlk5 : List ℕ :=
  dataCsv50 ++ (dataCsv51 ++ (dataCsv52 ++ (dataCsv53 ++ (dataCsv54 ++ (
  dataCsv55 ++ (dataCsv56 ++ (dataCsv57 ++ (dataCsv58 ++ (dataCsv59)))))))))

/-- lr/data.csv 6002-7001 -/
def dataBlk6 : List ℕ :=
  dataCsv60 ++ (dataCsv61 ++ (dataCsv62 ++ (dataCsv63 ++ (dataCsv64 ++ (
  dataCsv65 ++ (dataCsv66 ++ (dataCsv67 ++ (dataCsv68 ++ (dataCsv69)))))))))

/-- lr/data.csv 7002-8001 -/
def dataBlk7 : List ℕ :=
  dataCsv70 ++ (dataCsv71 ++ (dataCsv72 ++ (dataCsv73 ++ (dataCsv74 ++ (
  dataCsv75 ++ (dataCsv76 ++ (dataCsv77 ++ (dataCsv78 ++ (dataCsv79)))))))))

/-- lr/data.csv 8002-9001 -/
def dataBlk8 : List ℕ :=
  dataCsv80 ++ (dataCsv81 ++ (dataCsv82 ++ (dataCsv83 ++ (dataCsv84 ++ (
  dataCsv85 ++ (dataCsv86 ++ (dataCsv87 ++ (dataCsv88 ++ (dataCsv89)))))))))

/-- lr/data.csv 9002-10001 -/
def dataBlk9 : List ℕ :=
  dataCsv90 ++ (dataCsv91 ++ (dataCsv92 ++ (dataCsv93 ++ (dataCsv94 ++ (
  dataCsv95 ++ (dataCsv96 ++ (dataCsv97 ++ (dataCsv98 ++ (dataCsv99)))))))))

/-- The records of lr/data.csv. -/
def dataCsv : List ℕ :=
  dataBlk0 ++ (dataBlk1 ++ (dataBlk2 ++ (dataBlk3 ++ (dataBlk4 ++ (
  dataBlk5 ++ (dataBlk6 ++ (dataBlk7 ++ (dataBlk8 ++ (dataBlk9)))))))))

/-- The group of feature `j` in a record. -/
def dataGroup (r j : ℕ) : ℕ := r / 10 ^ (23 * (6 - j) + 1) % 10 ^ 23

/-- The sign of feature `j`, its number of decimals, and its digits. -/
def dataNeg (r j : ℕ) : Bool := dataGroup r j / 10 ^ 22 == 1

@[inherit_doc dataNeg]
def dataDec (r j : ℕ) : ℕ := dataGroup r j / 10 ^ 20 % 100

@[inherit_doc dataNeg]
def dataNum (r j : ℕ) : ℕ := dataGroup r j % 10 ^ 20

/-- The label of a record. -/
def dataLabel (r : ℕ) : ℕ := r % 10

/-- The last `k` digits of `n`, with leading zeros. -/
def padDigits : ℕ → ℕ → List Char
  | 0, _ => []
  | k + 1, n => padDigits k (n / 10) ++ [Nat.digitChar (n % 10)]

/-- A decimal as the file writes it: sign, digits before the point, and `k` digits after it (none and no point
if `k` is 0). -/
def decText (neg : Bool) (n k : ℕ) : String :=
  (if neg then "-" else "") ++ toString (n / 10 ^ k) ++
    (if k = 0 then "" else "." ++ String.ofList (padDigits k n))

/-- lr/data.csv 1 -/
def dataHeader : List String := ["0", "1", "2", "3", "4", "5", "6", "target"]

/-- A line of lr/data.csv, split at the commas. -/
def dataRow (r : ℕ) : List String :=
  (List.range 7).map (fun j => decText (dataNeg r j) (dataNum r j) (dataDec r j)) ++
    [decText false (dataLabel r) 0]

/-- What `csv.Reader.ReadAll` returns for lr/data.csv: the lines split at commas (no cell is quoted). -/
def dataRows : List (List String) := dataHeader :: dataCsv.map dataRow

open Utils (readData)

/-- `main` of lr/lr.go (75-422) with `readData` (502-534); `parse` is `strconv.ParseFloat`, made a
complex number. -/
noncomputable def lrProgram {C : Ctx} (parse : String → Option ℂ) (E : Encoder C (List ℂ)) (prm0 : CPar C)
    (logN : ℕ) (cfg : MainCfg) (rnd : MainRand C) (rows : List (List String)) : Go MainOut := do
  let t ← readData parse cfg.numData cfg.numFeature rows
  lrMain E prm0 logN cfg rnd t.feature t.label

/-- `main` of lr/lr_minibatch.go (75-465) with `readData` (541-573). -/
noncomputable def mbProgram {C : Ctx} (parse : String → Option ℂ) (E : Encoder C (List ℂ)) (prm0 : CPar C)
    (logN : ℕ) (cfg : MbCfg) (rnd : MainRand C) (rows : List (List String)) : Go MainOut := do
  let t ← readData parse cfg.numData cfg.numFeature rows
  mbMain E prm0 logN cfg rnd t.feature t.label

end MK.Lr
