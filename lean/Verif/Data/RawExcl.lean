set_option maxRecDepth 10000
/-! GENERATED by tools/gen_raw.py: the octets of src/u5e/props/CompositionExclusions.txt, one number per line (little-endian). -/
namespace U5e.Data

/-- src/u5e/props/CompositionExclusions.txt lines 1-208. -/
def rawExcl0 : List Nat := [
0x7478742e302e302e392d736e6f6973756c6378456e6f697469736f706d6f432023,
0x5d494c202c574b5b20544d472030303a30303a3232202c31322d31302d36313032203a657461442023,
0x2e636e49202caec265646f63696e55203631303220a9c22023,
0x6c6d74682e6573755f666f5f736d7265742f67726f2e65646f63696e752e7777772f2f3a7074746820656573202c65737520666f20736d72657420726f462023,
0x23,
0x6573616261746144207265746361726168432065646f63696e552023,
0x2f343472742f7374726f7065722f67726f2e65646f63696e752e7777772f2f3a7074746820656573202c6e6f697461746e656d75636f6420726f462023,
0x23,
0x656c626154206e6f6973756c637845206e6f697469736f706d6f432065687420726f6620737265746361726168632065687420737473696c20656c696620736968542023,
0x2e736d726f46206e6f6974617a696c616d726f4e2065646f63696e55202c35312320584155206e692064656e696665642023,
0x23,
0x656874206e6920656c696620617461642079726f7475626972746e6f632065766974616d726f6e206120736920656c696620736968542023,
0x2e6573616261746144207265746361726168432065646f63696e552023,
0x23,
0x656573202c6e6f6974616d726f666e692065726f6d20726f462023,
0x656c6261545f7473694c5f6e6f6973756c6378455f7972616d697250232f353172742f7374726f7065722f65646f63696e752f67726f2e65646f63696e752e7777772f2f3a707474682023,
0x23,
0x79747265706f727020646576697265642065687420656573202c736e6f6973756c637865206e6f697469736f706d6f6320666f206e6f6974617669726564206c6c7566206120726f462023,
0x7478742e73706f72506e6f6974617a696c616d726f4e64657669726544206e69206e6f6973756c6378455f6e6f697469736f706d6f435f6c6c75462023,
0x23,
0x0,
0x3d3d3d3d3d3d3d3d3d3d3d3d3d3d3d3d3d3d3d3d3d3d3d3d3d3d3d3d3d3d3d3d3d3d3d3d3d3d3d3d3d3d3d3d3d3d3d3d2023,
0x73636966696365705320747069726353202931282023,
0x23,
0x2e656c6966207478742e6174614465646f63696e5520656874206d6f7266206465766972656420656220746f6e6e6163207372657463617261686320666f207473696c20736968542023,
0x3d3d3d3d3d3d3d3d3d3d3d3d3d3d3d3d3d3d3d3d3d3d3d3d3d3d3d3d3d3d3d3d3d3d3d3d3d3d3d3d3d3d3d3d3d3d3d3d2023,
0x0,
0x41512052455454454c2049524147414e415645442020232020202038353930,
0x4148484b2052455454454c2049524147414e415645442020232020202039353930,
0x414848472052455454454c2049524147414e415645442020232020202041353930,
0x415a2052455454454c2049524147414e415645442020232020202042353930,
0x41484444442052455454454c2049524147414e415645442020232020202043353930,
0x4148522052455454454c2049524147414e415645442020232020202044353930,
0x41462052455454454c2049524147414e415645442020232020202045353930,
0x4159592052455454454c2049524147414e415645442020232020202046353930,
0x4152522052455454454c20494c41474e45422020232020202043443930,
0x4148522052455454454c20494c41474e45422020232020202044443930,
0x4159592052455454454c20494c41474e45422020232020202046443930,
0x414c4c2052455454454c2049484b554d5255472020232020202033334130,
0x4148532052455454454c2049484b554d5255472020232020202036334130,
0x4148484b2052455454454c2049484b554d5255472020232020202039354130,
0x414848472052455454454c2049484b554d5255472020232020202041354130,
0x415a2052455454454c2049484b554d5255472020232020202042354130,
0x41462052455454454c2049484b554d5255472020232020202045354130,
0x4152522052455454454c20415949524f2020232020202043354230,
0x4148522052455454454c20415949524f2020232020202044354230,
0x4148472052455454454c204e4154454249542020232020202033344630,
0x414844442052455454454c204e4154454249542020232020202044344630,
0x4148442052455454454c204e4154454249542020232020202032354630,
0x4148422052455454454c204e4154454249542020232020202037354630,
0x41485a442052455454454c204e4154454249542020232020202043354630,
0x4153534b2052455454454c204e4154454249542020232020202039364630,
0x522043494c41434f56204e474953204c45574f56204e4154454249542020232020202036374630,
0x4c2043494c41434f56204e474953204c45574f56204e4154454249542020232020202038374630,
0x4148472052455454454c2044454e494f4a425553204e4154454249542020232020202033394630,
0x414844442052455454454c2044454e494f4a425553204e4154454249542020232020202044394630,
0x4148442052455454454c2044454e494f4a425553204e4154454249542020232020202032414630,
0x4148422052455454454c2044454e494f4a425553204e4154454249542020232020202037414630,
0x41485a442052455454454c2044454e494f4a425553204e4154454249542020232020202043414630,
0x4153534b2052455454454c2044454e494f4a425553204e4154454249542020232020202039424630,
0x5149524948204854495720444f592052455454454c205745524245482020232020202044314246,
0x484154415020444f5920444f59204853494444495920455255544147494c205745524245482020232020202046314246,
0x544f44204e4948532048544957204e4948532052455454454c205745524245482020232020202041324246,
0x544f44204e49532048544957204e4948532052455454454c205745524245482020232020202042324246,
0x544f44204e49485320444e41204853454741442048544957204e4948532052455454454c205745524245482020232020202043324246,
0x544f44204e495320444e41204853454741442048544957204e4948532052455454454c205745524245482020232020202044324246,
0x484154415020485449572046454c412052455454454c205745524245482020232020202045324246,
0x5354414d415120485449572046454c412052455454454c205745524245482020232020202046324246,
0x514950414d20485449572046454c412052455454454c205745524245482020232020202030334246,
0x4853454741442048544957205445422052455454454c205745524245482020232020202031334246,
0x4853454741442048544957204c454d49472052455454454c205745524245482020232020202032334246,
0x48534547414420485449572054454c41442052455454454c205745524245482020232020202033334246,
0x514950414d20485449572045482052455454454c205745524245482020232020202034334246,
0x4853454741442048544957205641562052455454454c205745524245482020232020202035334246,
0x4853454741442048544957204e4959415a2052455454454c205745524245482020232020202036334246,
0x4853454741442048544957205445542052455454454c205745524245482020232020202038334246,
0x485345474144204854495720444f592052455454454c205745524245482020232020202039334246,
0x48534547414420485449572046414b204c414e49462052455454454c205745524245482020232020202041334246,
0x48534547414420485449572046414b2052455454454c205745524245482020232020202042334246,
0x48534547414420485449572044454d414c2052455454454c205745524245482020232020202043334246,
0x4853454741442048544957204d454d2052455454454c205745524245482020232020202045334246,
0x4853454741442048544957204e554e2052455454454c205745524245482020232020202030344246,
0x485345474144204854495720484b454d41532052455454454c205745524245482020232020202031344246,
0x4853454741442048544957204550204c414e49462052455454454c205745524245482020232020202033344246,
0x48534547414420485449572045502052455454454c205745524245482020232020202034344246,
0x48534547414420485449572049444153542052455454454c205745524245482020232020202036344246,
0x485345474144204854495720464f512052455454454c205745524245482020232020202037344246,
0x485345474144204854495720485345522052455454454c205745524245482020232020202038344246,
0x4853454741442048544957204e4948532052455454454c205745524245482020232020202039344246,
0x4853454741442048544957205641542052455454454c205745524245482020232020202041344246,
0x4d414c4f482048544957205641562052455454454c205745524245482020232020202042344246,
0x454641522048544957205445422052455454454c205745524245482020232020202043344246,
0x4546415220485449572046414b2052455454454c205745524245482020232020202044344246,
0x4546415220485449572045502052455454454c205745524245482020232020202045344246,
0x0,
0x3736203a73746e696f702065646f63206c61746f542023,
0x0,
0x3d3d3d3d3d3d3d3d3d3d3d3d3d3d3d3d3d3d3d3d3d3d3d3d3d3d3d3d3d3d3d3d3d3d3d3d3d3d3d3d3d3d3d3d3d3d3d3d2023,
0x73726574636172616863206465736f706d6f63657270206e6f6973726556206e6f697469736f706d6f432074736f50202932282023,
0x23,
0x656c6966207478742e6174614465646f63696e5520656874206d6f726620796c656c6f73206465766972656420656220746f6e6e616320737265746361726168632065736568542023,
0x2e65646f63696e5520666f206e6f69737265762073696874206e692023,
0x23,
0x65687420726574666120647261646e61747320656874206f74206465646461207372657463617261686320746168742065746f4e2023,
0x73676e697070616d206e6f697469736f706d6f636564206c6163696e6f6e6163206576616820686369687720646e61206e6f6973726556206e6f697469736f706d6f432023,
0x6e6f697469736f706d6f432074736f5020666f207473696c2073696874206f7420646564646120796c6c61636974616d6f74756120746f6e206572612023,
0x2e73726574636172616863206465736f706d6f63657270206e6f69737265562023,
0x3d3d3d3d3d3d3d3d3d3d3d3d3d3d3d3d3d3d3d3d3d3d3d3d3d3d3d3d3d3d3d3d3d3d3d3d3d3d3d3d3d3d3d3d3d3d3d3d2023,
0x0,
0x474e494b524f462020232020202043444132,
0x45544f4e20464c4148204c4f424d5953204c41434953554d2020232020204535314431,
0x45544f4e2052455452415551204c4f424d5953204c41434953554d2020232020204635314431,
0x45544f4e20485448474945204c4f424d5953204c41434953554d2020232020203036314431,
0x45544f4e2048544e454554584953204c4f424d5953204c41434953554d2020232020203136314431,
0x45544f4e20444e4f4345532d595452494854204c4f424d5953204c41434953554d2020232020203236314431,
0x45544f4e20485452554f462d5954584953204c4f424d5953204c41434953554d2020232020203336314431,
0x45544f4e204854484749452d59544e45575420444552444e554820454e4f204c4f424d5953204c41434953554d2020232020203436314431,
0x414d494e494d204c4f424d5953204c41434953554d2020232020204242314431,
0x4b43414c4220414d494e494d204c4f424d5953204c41434953554d2020232020204342314431,
0x455449485720414d494e494d494d4553204c4f424d5953204c41434953554d2020232020204442314431,
0x4b43414c4220414d494e494d494d4553204c4f424d5953204c41434953554d2020232020204542314431,
0x45544948572041535546204c4f424d5953204c41434953554d2020232020204642314431,
0x4b43414c422041535546204c4f424d5953204c41434953554d2020232020203043314431,
0x0,
0x3431203a73746e696f702065646f63206c61746f542023,
0x0,
0x3d3d3d3d3d3d3d3d3d3d3d3d3d3d3d3d3d3d3d3d3d3d3d3d3d3d3d3d3d3d3d3d3d3d3d3d3d3d3d3d3d3d3d3d3d3d3d3d2023,
0x736e6f697469736f706d6f636544206e6f74656c676e6953202933282023,
0x23,
0x656c6966207478742e6174614465646f63696e5520656874206d6f72662064657669726564206562206e616320737265746361726168632065736568542023,
0x65736f6877207372657463617261686320656c6261736f706d6f63656420796c6c6163696e6f6e6163206c6c6120676e6964756c636e692079622023,
0x2e72657463617261686320656c676e6973206120666f2073747369736e6f63206e6f697469736f706d6f636564206c6163696e6f6e61632023,
0x23,
0x2e65636e65726566657220726f662065726568206465746f757120796c706d69732065726120737265746361726168632065736568542023,
0x7478742e73706f72506e6f6974617a696c616d726f4e64657669726544206e69206e6f6973756c6378455f6e6f697469736f706d6f435f6c6c7546206f736c61206565532023,
0x3d3d3d3d3d3d3d3d3d3d3d3d3d3d3d3d3d3d3d3d3d3d3d3d3d3d3d3d3d3d3d3d3d3d3d3d3d3d3d3d3d3d3d3d3d3d3d3d2023,
0x0,
0x4b52414d20454e4f5420455455434120474e494e49424d4f432e2e4b52414d20454e4f5420455641524720474e494e49424d4f43205d325b20202020202020313433302e2e303433302023,
0x53494e4f524f4b204b4545524720474e494e49424d4f432020202020202020202020202020202020333433302023,
0x4e474953204c4152454d554e204b454552472020202020202020202020202020202020343733302023,
0x4b52414d204e4f495453455551204b454552472020202020202020202020202020202020453733302023,
0x4149454c4554204f4e41204b454552472020202020202020202020202020202020373833302023,
0x4149584f2048544957204148504c412052455454454c204c4c414d53204b454552472020202020202020202020202020202020313746312023,
0x4149584f2048544957204e4f4c495350452052455454454c204c4c414d53204b454552472020202020202020202020202020202020333746312023,
0x4149584f2048544957204154452052455454454c204c4c414d53204b454552472020202020202020202020202020202020353746312023,
0x4149584f20485449572041544f492052455454454c204c4c414d53204b454552472020202020202020202020202020202020373746312023,
0x4149584f2048544957204e4f5243494d4f2052455454454c204c4c414d53204b454552472020202020202020202020202020202020393746312023,
0x4149584f2048544957204e4f4c495350552052455454454c204c4c414d53204b454552472020202020202020202020202020202020423746312023,
0x4149584f2048544957204147454d4f2052455454454c204c4c414d53204b454552472020202020202020202020202020202020443746312023,
0x4149584f2048544957204148504c412052455454454c204c415449504143204b454552472020202020202020202020202020202020424246312023,
0x494e454d4d4152474547534f5250204b454552472020202020202020202020202020202020454246312023,
0x4149584f2048544957204e4f4c495350452052455454454c204c415449504143204b454552472020202020202020202020202020202020394346312023,
0x4149584f2048544957204154452052455454454c204c415449504143204b454552472020202020202020202020202020202020424346312023,
0x4149584f20444e4120414b4954594c41494420485449572041544f492052455454454c204c4c414d53204b454552472020202020202020202020202020202020334446312023,
0x4149584f20485449572041544f492052455454454c204c415449504143204b454552472020202020202020202020202020202020424446312023,
0x4149584f20444e4120414b4954594c4149442048544957204e4f4c495350552052455454454c204c4c414d53204b454552472020202020202020202020202020202020334546312023,
0x4149584f2048544957204e4f4c495350552052455454454c204c415449504143204b454552472020202020202020202020202020202020424546312023,
0x4149524156204b454552472e2e4149584f20444e4120414b4954594c414944204b45455247205d325b20202020202020464546312e2e454546312023,
0x4149584f2048544957204e4f5243494d4f2052455454454c204c415449504143204b454552472020202020202020202020202020202020394646312023,
0x4149584f2048544957204147454d4f2052455454454c204c415449504143204b454552472020202020202020202020202020202020424646312023,
0x4149584f204b454552472020202020202020202020202020202020444646312023,
0x44415551204d452e2e44415551204e45205d325b20202020202020313030322e2e303030322023,
0x4e474953204d484f2020202020202020202020202020202020363231322023,
0x4e474953204d4f525453474e412e2e4e474953204e49564c454b205d325b20202020202020423231322e2e413231322023,
0x54454b4341524220454c474e4120474e49544e494f502d5446454c2020202020202020202020202020202020393233322023,
0x54454b4341524220454c474e4120474e49544e494f502d54484749522020202020202020202020202020202020413233322023,
0x443041462d48504152474f454449205954494c4942495441504d4f43204b4a432e2e303039462d48504152474f454449205954494c4942495441504d4f43204b4a43205d3037325b2020202020443041462e2e303039462023,
0x303141462d48504152474f454449205954494c4942495441504d4f43204b4a432020202020202020202020202020202020303141462023,
0x323141462d48504152474f454449205954494c4942495441504d4f43204b4a432020202020202020202020202020202020323141462023,
0x453141462d48504152474f454449205954494c4942495441504d4f43204b4a432e2e353141462d48504152474f454449205954494c4942495441504d4f43204b4a43205d30315b202020202020453141462e2e353141462023,
0x303241462d48504152474f454449205954494c4942495441504d4f43204b4a432020202020202020202020202020202020303241462023,
0x323241462d48504152474f454449205954494c4942495441504d4f43204b4a432020202020202020202020202020202020323241462023,
0x363241462d48504152474f454449205954494c4942495441504d4f43204b4a432e2e353241462d48504152474f454449205954494c4942495441504d4f43204b4a43205d325b20202020202020363241462e2e353241462023,
0x443641462d48504152474f454449205954494c4942495441504d4f43204b4a432e2e413241462d48504152474f454449205954494c4942495441504d4f43204b4a43205d38365b202020202020443641462e2e413241462023,
0x394441462d48504152474f454449205954494c4942495441504d4f43204b4a432e2e303741462d48504152474f454449205954494c4942495441504d4f43204b4a43205d3630315b2020202020394441462e2e303741462023,
0x44314146322d48504152474f454449205954494c4942495441504d4f43204b4a432e2e30303846322d48504152474f454449205954494c4942495441504d4f43204b4a43205d3234355b20202044314146322e2e30303846322023,
0x0,
0x35333031203a73746e696f702065646f63206c61746f542023,
0x0,
0x3d3d3d3d3d3d3d3d3d3d3d3d3d3d3d3d3d3d3d3d3d3d3d3d3d3d3d3d3d3d3d3d3d3d3d3d3d3d3d3d3d3d3d3d3d3d3d3d2023,
0x736e6f697469736f706d6f63654420726574726174532d6e6f4e202934282023,
0x23,
0x656c6966207478742e6174614465646f63696e5520656874206d6f72662064657669726564206562206e616320737265746361726168632065736568542023,
0x6e6f697469736f706d6f636564206c6163696e6f6e616320676e69646e61707865206863616520676e6964756c636e692079622023,
0x65636e65757165732061206f742065736f706d6f63656420796c6c6163696e6f6e61632068636968772065736f6874202c2e652e69282023,
0x3a746168742068637573202c2972657463617261686320656c676e6973206120666f2064616574736e69207372657463617261686320666f2023,
0x23,
0x2e72657472617453206120746f6e2073692072657463617261686320656854202e412023,
0x23,
0x2965766973756c636e692820524f2023,
0x23,
0x736e69676562206e6f697469736f706d6f636564206c6163696e6f6e616320732772657463617261686320656854202e422023,
0x2e72657472617453206120746f6e207369207461687420726574636172616863206120687469772023,
0x23,
0x2e7373616c6320676e696e69626d6f63206f72657a206120687469772072657463617261686320796e6120736920227265747261745322206120746168742065746f4e2023,
0x23,
0x2e65636e65726566657220726f662065726568206465746f757120796c706d69732065726120737265746361726168632065736568542023,
0x7478742e73706f72506e6f6974617a696c616d726f4e64657669726544206e69206e6f6973756c6378455f6e6f697469736f706d6f435f6c6c7546206f736c61206565532023,
0x3d3d3d3d3d3d3d3d3d3d3d3d3d3d3d3d3d3d3d3d3d3d3d3d3d3d3d3d3d3d3d3d3d3d3d3d3d3d3d3d3d3d3d3d3d3d3d3d2023,
0x0,
0x534f4e4f5420414b4954594c414944204b4545524720474e494e49424d4f432020202020202020202020202020202020343433302023,
0x4949204e474953204c45574f56204e4154454249542020202020202020202020202020202020333746302023,
0x5555204e474953204c45574f56204e4154454249542020202020202020202020202020202020353746302023,
0x4949204445535245564552204e474953204c45574f56204e4154454249542020202020202020202020202020202020313846302023,
0x0,
0x34203a73746e696f702065646f63206c61746f542023,
0x0,
0x464f452023]

/-- The lines of src/u5e/props/CompositionExclusions.txt. -/
@[irreducible] def compositionExclusionsRaw : List Nat :=
  rawExcl0

end U5e.Data
