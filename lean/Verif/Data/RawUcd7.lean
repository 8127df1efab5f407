set_option maxRecDepth 10000
/-! GENERATED by tools/gen_raw.py: the octets of src/u5e/props/UnicodeData.txt, one number per line (little-endian). -/
namespace U5e.Data

/-- src/u5e/props/UnicodeData.txt lines 26881-27136. -/
def rawUcd105 : List Nat := [
0x3b3b3b3b3b4e3b3b3b3b3b4c3b303b6f533b4e45504f20424d554854205845444e49205055432d444e414820474e49544952574e4749533b4445384431,
0x3b3b3b3b3b4e3b3b3b3b3b4c3b303b6f533b4e45504f20424d554854205845444e492045474e49482d444e414820474e49544952574e4749533b4545384431,
0x3b3b3b3b3b4e3b3b3b3b3b4c3b303b6f533b454752414c20424d554854205845444e492045474e49482d444e414820474e49544952574e4749533b4645384431,
0x3b3b3b3b3b4e3b3b3b3b3b4c3b303b6f533b424d554854205845444e492045474e49482d444e414820474e49544952574e4749533b3046384431,
0x3b3b3b3b3b4e3b3b3b3b3b4c3b303b6f533b4c4c414d5320424d554854205845444e492045474e49482d444e414820474e49544952574e4749533b3146384431,
0x3b3b3b3b3b4e3b3b3b3b3b4c3b303b6f533b54554f20424d554854205845444e4920454c474e412d444e414820474e49544952574e4749533b3246384431,
0x3b3b3b3b3b4e3b3b3b3b3b4c3b303b6f533b4e4920424d554854205845444e4920454c474e412d444e414820474e49544952574e4749533b3346384431,
0x3b3b3b3b3b4e3b3b3b3b3b4c3b303b6f533b424d554854205845444e4920454c474e412d444e414820474e49544952574e4749533b3446384431,
0x3b3b3b3b3b4e3b3b3b3b3b4c3b303b6f533b424d55485420545349462d444e414820474e49544952574e4749533b3546384431,
0x3b3b3b3b3b4e3b3b3b3b3b4c3b303b6f533b4c45454820424d55485420545349462d444e414820474e49544952574e4749533b3646384431,
0x3b3b3b3b3b4e3b3b3b3b3b4c3b303b6f533b4c414e4f47414944204544495320424d55485420545349462d444e414820474e49544952574e4749533b3746384431,
0x3b3b3b3b3b4e3b3b3b3b3b4c3b303b6f533b44454e494f4a4e4f43204544495320424d55485420545349462d444e414820474e49544952574e4749533b3846384431,
0x3b3b3b3b3b4e3b3b3b3b3b4c3b303b6f533b544e4542204544495320424d55485420545349462d444e414820474e49544952574e4749533b3946384431,
0x3b3b3b3b3b4e3b3b3b3b3b4c3b303b6f533b44524157524f4620424d55485420545349462d444e414820474e49544952574e4749533b4146384431,
0x3b3b3b3b3b4e3b3b3b3b3b4c3b303b6f533b454c4444494d205845444e49204e45455754454220424d55485420545349462d444e414820474e49544952574e4749533b4246384431,
0x3b3b3b3b3b4e3b3b3b3b3b4c3b303b6f533b474e495220454c4444494d204e45455754454220424d55485420545349462d444e414820474e49544952574e4749533b4346384431,
0x3b3b3b3b3b4e3b3b3b3b3b4c3b303b6f533b454c5454494c20474e4952204e45455754454220424d55485420545349462d444e414820474e49544952574e4749533b4446384431,
0x3b3b3b3b3b4e3b3b3b3b3b4c3b303b6f533b535245474e4946204f5754205245444e5520424d55485420545349462d444e414820474e49544952574e4749533b4546384431,
0x3b3b3b3b3b4e3b3b3b3b3b4c3b303b6f533b535245474e4946204f5754205245564f20424d55485420545349462d444e414820474e49544952574e4749533b4646384431,
0x3b3b3b3b3b4e3b3b3b3b3b4c3b303b6f533b535245474e4946204545524854205245444e5520424d55485420545349462d444e414820474e49544952574e4749533b3030394431,
0x3b3b3b3b3b4e3b3b3b3b3b4c3b303b6f533b535245474e49462052554f46205245444e5520424d55485420545349462d444e414820474e49544952574e4749533b3130394431,
0x3b3b3b3b3b4e3b3b3b3b3b4c3b303b6f533b53454c4b43554e4b204445534941522052554f46205245564f20424d55485420545349462d444e414820474e49544952574e4749533b3230394431,
0x3b3b3b3b3b4e3b3b3b3b3b4c3b303b6f533b545349462d444e414820474e49544952574e4749533b3330394431,
0x3b3b3b3b3b4e3b3b3b3b3b4c3b303b6f533b4c45454820545349462d444e414820474e49544952574e4749533b3430394431,
0x3b3b3b3b3b4e3b3b3b3b3b4c3b303b6f533b454c474e4953204843554f5420474e49544952574e4749533b3530394431,
0x3b3b3b3b3b4e3b3b3b3b3b4c3b303b6f533b454c5049544c554d204843554f5420474e49544952574e4749533b3630394431,
0x3b3b3b3b3b4e3b3b3b3b3b4c3b303b6f533b4e454557544542204843554f5420474e49544952574e4749533b3730394431,
0x3b3b3b3b3b4e3b3b3b3b3b4c3b303b6f533b454c474e495320505341524720474e49544952574e4749533b3830394431,
0x3b3b3b3b3b4e3b3b3b3b3b4c3b303b6f533b454c5049544c554d20505341524720474e49544952574e4749533b3930394431,
0x3b3b3b3b3b4e3b3b3b3b3b4c3b303b6f533b4e45455754454220505341524720474e49544952574e4749533b4130394431,
0x3b3b3b3b3b4e3b3b3b3b3b4c3b303b6f533b454c474e495320454b4952545320474e49544952574e4749533b4230394431,
0x3b3b3b3b3b4e3b3b3b3b3b4c3b303b6f533b454c5049544c554d20454b4952545320474e49544952574e4749533b4330394431,
0x3b3b3b3b3b4e3b3b3b3b3b4c3b303b6f533b4e45455754454220454b4952545320474e49544952574e4749533b4430394431,
0x3b3b3b3b3b4e3b3b3b3b3b4c3b303b6f533b454c474e495320485355524220474e49544952574e4749533b4530394431,
0x3b3b3b3b3b4e3b3b3b3b3b4c3b303b6f533b454c5049544c554d20485355524220474e49544952574e4749533b4630394431,
0x3b3b3b3b3b4e3b3b3b3b3b4c3b303b6f533b4e45455754454220485355524220474e49544952574e4749533b3031394431,
0x3b3b3b3b3b4e3b3b3b3b3b4c3b303b6f533b454c474e49532042555220474e49544952574e4749533b3131394431,
0x3b3b3b3b3b4e3b3b3b3b3b4c3b303b6f533b454c5049544c554d2042555220474e49544952574e4749533b3231394431,
0x3b3b3b3b3b4e3b3b3b3b3b4c3b303b6f533b4e4545575445422042555220474e49544952574e4749533b3331394431,
0x3b3b3b3b3b4e3b3b3b3b3b4c3b303b6f533b534c4f424d5953204543414652555320474e49544952574e4749533b3431394431,
0x3b3b3b3b3b4e3b3b3b3b3b4c3b303b6f533b4e454557544542204543414652555320474e49544952574e4749533b3531394431,
0x3b3b3b3b3b4e3b3b3b3b3b4c3b303b6f533b454c474e495320454752414c20455a454555515320474e49544952574e4749533b3631394431,
0x3b3b3b3b3b4e3b3b3b3b3b4c3b303b6f533b454c474e4953204c4c414d5320455a454555515320474e49544952574e4749533b3731394431,
0x3b3b3b3b3b4e3b3b3b3b3b4c3b303b6f533b454c5049544c554d20454752414c20455a454555515320474e49544952574e4749533b3831394431,
0x3b3b3b3b3b4e3b3b3b3b3b4c3b303b6f533b454c5049544c554d204c4c414d5320455a454555515320474e49544952574e4749533b3931394431,
0x3b3b3b3b3b4e3b3b3b3b3b4c3b303b6f533b4c4149544e455551455320455a454555515320474e49544952574e4749533b4131394431,
0x3b3b3b3b3b4e3b3b3b3b3b4c3b303b6f533b454c474e495320454752414c204b43494c4620474e49544952574e4749533b4231394431,
0x3b3b3b3b3b4e3b3b3b3b3b4c3b303b6f533b454c474e4953204c4c414d53204b43494c4620474e49544952574e4749533b4331394431,
0x3b3b3b3b3b4e3b3b3b3b3b4c3b303b6f533b454c5049544c554d20454752414c204b43494c4620474e49544952574e4749533b4431394431,
0x3b3b3b3b3b4e3b3b3b3b3b4c3b303b6f533b454c5049544c554d204c4c414d53204b43494c4620474e49544952574e4749533b4531394431,
0x3b3b3b3b3b4e3b3b3b3b3b4c3b303b6f533b4c4149544e4555514553204b43494c4620474e49544952574e4749533b4631394431,
0x3b3b3b3b3b4e3b3b3b3b3b4c3b303b6f533b474e4954414e5245544c41204b43494c4620455a454555515320474e49544952574e4749533b3032394431,
0x3b3b3b3b3b4e3b3b3b3b3b4c3b303b6f533b454752414c204e574f442050552045474e49482d544e454d45564f4d20474e49544952574e4749533b3132394431,
0x3b3b3b3b3b4e3b3b3b3b3b4c3b303b6f533b4c4c414d53204e574f442050552045474e49482d544e454d45564f4d20474e49544952574e4749533b3232394431,
0x3b3b3b3b3b4e3b3b3b3b3b4c3b303b6f533b4c4149544e45555145532050552045474e49482d544e454d45564f4d20474e49544952574e4749533b3332394431,
0x3b3b3b3b3b4e3b3b3b3b3b4c3b303b6f533b4c4149544e4555514553204e574f442045474e49482d544e454d45564f4d20474e49544952574e4749533b3432394431,
0x3b3b3b3b3b4e3b3b3b3b3b4c3b303b6f533b454752414c20474e4954414e5245544c41204e574f442050552045474e49482d544e454d45564f4d20474e49544952574e4749533b3532394431,
0x3b3b3b3b3b4e3b3b3b3b3b4c3b303b6f533b4c4c414d5320474e4954414e5245544c41204e574f442050552045474e49482d544e454d45564f4d20474e49544952574e4749533b3632394431,
0x3b3b3b3b3b4e3b3b3b3b3b4c3b303b6f533b53524f53534943532045444953204f5420454449532045474e49482d544e454d45564f4d20474e49544952574e4749533b3732394431,
0x3b3b3b3b3b4e3b3b3b3b3b4c3b303b6f533b544341544e4f43205245474e494620454e414c504c4c41572d544e454d45564f4d20474e49544952574e4749533b3832394431,
0x3b3b3b3b3b4e3b3b3b3b3b4c3b303b6f533b544341544e4f43205245474e494620454e414c50524f4f4c462d544e454d45564f4d20474e49544952574e4749533b3932394431,
0x3b3b3b3b3b4e3b3b3b3b3b4c3b303b6f533b4c4c414d5320544847494152545320454c474e495320454e414c504c4c41572d544e454d45564f4d20474e49544952574e4749533b4132394431,
0x3b3b3b3b3b4e3b3b3b3b3b4c3b303b6f533b4d554944454d20544847494152545320454c474e495320454e414c504c4c41572d544e454d45564f4d20474e49544952574e4749533b4232394431,
0x3b3b3b3b3b4e3b3b3b3b3b4c3b303b6f533b454752414c20544847494152545320454c474e495320454e414c504c4c41572d544e454d45564f4d20474e49544952574e4749533b4332394431,
0x3b3b3b3b3b4e3b3b3b3b3b4c3b303b6f533b5453454752414c20544847494152545320454c474e495320454e414c504c4c41572d544e454d45564f4d20474e49544952574e4749533b4432394431,
0x3b3b3b3b3b4e3b3b3b3b3b4c3b303b6f533b58454c4620545349525720454c474e495320454e414c504c4c41572d544e454d45564f4d20474e49544952574e4749533b4532394431,
0x3b3b3b3b3b4e3b3b3b3b3b4c3b303b6f533b544847494152545320454c42554f4420454e414c504c4c41572d544e454d45564f4d20474e49544952574e4749533b4632394431,
0x3b3b3b3b3b4e3b3b3b3b3b4c3b303b6f533b58454c4620545349525720454c42554f4420454e414c504c4c41572d544e454d45564f4d20474e49544952574e4749533b3033394431,
0x3b3b3b3b3b4e3b3b3b3b3b4c3b303b6f533b474e4954414e5245544c4120454c42554f4420454e414c504c4c41572d544e454d45564f4d20474e49544952574e4749533b3133394431,
0x3b3b3b3b3b4e3b3b3b3b3b4c3b303b6f533b58454c4620545349525720474e4954414e5245544c4120454c42554f4420454e414c504c4c41572d544e454d45564f4d20474e49544952574e4749533b3233394431,
0x3b3b3b3b3b4e3b3b3b3b3b4c3b303b6f533b53534f524320454e414c504c4c41572d544e454d45564f4d20474e49544952574e4749533b3333394431,
0x3b3b3b3b3b4e3b3b3b3b3b4c3b303b6f533b544e454d45564f4d20544847494152545320454c5049525420454e414c504c4c41572d544e454d45564f4d20474e49544952574e4749533b3433394431,
0x3b3b3b3b3b4e3b3b3b3b3b4c3b303b6f533b58454c4620545349525720454c5049525420454e414c504c4c41572d544e454d45564f4d20474e49544952574e4749533b3533394431,
0x3b3b3b3b3b4e3b3b3b3b3b4c3b303b6f533b474e4954414e5245544c4120454c5049525420454e414c504c4c41572d544e454d45564f4d20474e49544952574e4749533b3633394431,
0x3b3b3b3b3b4e3b3b3b3b3b4c3b303b6f533b58454c4620545349525720474e4954414e5245544c4120454c5049525420454e414c504c4c41572d544e454d45564f4d20474e49544952574e4749533b3733394431,
0x3b3b3b3b3b4e3b3b3b3b3b4c3b303b6f533b4c4c414d5320444e454220454e414c504c4c41572d544e454d45564f4d20474e49544952574e4749533b3833394431,
0x3b3b3b3b3b4e3b3b3b3b3b4c3b303b6f533b4d554944454d20444e454220454e414c504c4c41572d544e454d45564f4d20474e49544952574e4749533b3933394431,
0x3b3b3b3b3b4e3b3b3b3b3b4c3b303b6f533b454752414c20444e454220454e414c504c4c41572d544e454d45564f4d20474e49544952574e4749533b4133394431,
0x3b3b3b3b3b4e3b3b3b3b3b4c3b303b6f533b4c4c414d532052454e524f4320454e414c504c4c41572d544e454d45564f4d20474e49544952574e4749533b4233394431,
0x3b3b3b3b3b4e3b3b3b3b3b4c3b303b6f533b4d554944454d2052454e524f4320454e414c504c4c41572d544e454d45564f4d20474e49544952574e4749533b4333394431,
0x3b3b3b3b3b4e3b3b3b3b3b4c3b303b6f533b454752414c2052454e524f4320454e414c504c4c41572d544e454d45564f4d20474e49544952574e4749533b4433394431,
0x3b3b3b3b3b4e3b3b3b3b3b4c3b303b6f533b4e4f495441544f522052454e524f4320454e414c504c4c41572d544e454d45564f4d20474e49544952574e4749533b4533394431,
0x3b3b3b3b3b4e3b3b3b3b3b4c3b303b6f533b4c4c414d53204b4345484320454e414c504c4c41572d544e454d45564f4d20474e49544952574e4749533b4633394431,
0x3b3b3b3b3b4e3b3b3b3b3b4c3b303b6f533b4d554944454d204b4345484320454e414c504c4c41572d544e454d45564f4d20474e49544952574e4749533b3034394431,
0x3b3b3b3b3b4e3b3b3b3b3b4c3b303b6f533b454752414c204b4345484320454e414c504c4c41572d544e454d45564f4d20474e49544952574e4749533b3134394431,
0x3b3b3b3b3b4e3b3b3b3b3b4c3b303b6f533b4c4c414d5320584f4220454e414c504c4c41572d544e454d45564f4d20474e49544952574e4749533b3234394431,
0x3b3b3b3b3b4e3b3b3b3b3b4c3b303b6f533b4d554944454d20584f4220454e414c504c4c41572d544e454d45564f4d20474e49544952574e4749533b3334394431,
0x3b3b3b3b3b4e3b3b3b3b3b4c3b303b6f533b454752414c20584f4220454e414c504c4c41572d544e454d45564f4d20474e49544952574e4749533b3434394431,
0x3b3b3b3b3b4e3b3b3b3b3b4c3b303b6f533b4c4c414d532047415a47495a20454e414c504c4c41572d544e454d45564f4d20474e49544952574e4749533b3534394431,
0x3b3b3b3b3b4e3b3b3b3b3b4c3b303b6f533b4d554944454d2047415a47495a20454e414c504c4c41572d544e454d45564f4d20474e49544952574e4749533b3634394431,
0x3b3b3b3b3b4e3b3b3b3b3b4c3b303b6f533b454752414c2047415a47495a20454e414c504c4c41572d544e454d45564f4d20474e49544952574e4749533b3734394431,
0x3b3b3b3b3b4e3b3b3b3b3b4c3b303b6f533b4c4c414d5320534b41455020454e414c504c4c41572d544e454d45564f4d20474e49544952574e4749533b3834394431,
0x3b3b3b3b3b4e3b3b3b3b3b4c3b303b6f533b4d554944454d20534b41455020454e414c504c4c41572d544e454d45564f4d20474e49544952574e4749533b3934394431,
0x3b3b3b3b3b4e3b3b3b3b3b4c3b303b6f533b454752414c20534b41455020454e414c504c4c41572d544e454d45564f4d20474e49544952574e4749533b4134394431,
0x3b3b3b3b3b4e3b3b3b3b3b4c3b303b6f533b454c474e495320454e414c504c4c41572d4e4f495441544f5220454e414c504c4c41572d4c455641525420474e49544952574e4749533b4234394431,
0x3b3b3b3b3b4e3b3b3b3b3b4c3b303b6f533b454c42554f4420454e414c504c4c41572d4e4f495441544f5220454e414c504c4c41572d4c455641525420474e49544952574e4749533b4334394431,
0x3b3b3b3b3b4e3b3b3b3b3b4c3b303b6f533b474e4954414e5245544c4120454e414c504c4c41572d4e4f495441544f5220454e414c504c4c41572d4c455641525420474e49544952574e4749533b4434394431,
0x3b3b3b3b3b4e3b3b3b3b3b4c3b303b6f533b454c474e495320454e414c50524f4f4c462d4e4f495441544f5220454e414c504c4c41572d4c455641525420474e49544952574e4749533b4534394431,
0x3b3b3b3b3b4e3b3b3b3b3b4c3b303b6f533b454c42554f4420454e414c50524f4f4c462d4e4f495441544f5220454e414c504c4c41572d4c455641525420474e49544952574e4749533b4634394431,
0x3b3b3b3b3b4e3b3b3b3b3b4c3b303b6f533b474e4954414e5245544c4120454e414c50524f4f4c462d4e4f495441544f5220454e414c504c4c41572d4c455641525420474e49544952574e4749533b3035394431,
0x3b3b3b3b3b4e3b3b3b3b3b4c3b303b6f533b474e494b41485320454e414c504c4c41572d4c455641525420474e49544952574e4749533b3135394431,
0x3b3b3b3b3b4e3b3b3b3b3b4c3b303b6f533b454c474e4953204c4152495053204d524120454e414c504c4c41572d4c455641525420474e49544952574e4749533b3235394431,
0x3b3b3b3b3b4e3b3b3b3b3b4c3b303b6f533b454c42554f44204c4152495053204d524120454e414c504c4c41572d4c455641525420474e49544952574e4749533b3335394431,
0x3b3b3b3b3b4e3b3b3b3b3b4c3b303b6f533b454c50495254204c4152495053204d524120454e414c504c4c41572d4c455641525420474e49544952574e4749533b3435394431,
0x3b3b3b3b3b4e3b3b3b3b3b4c3b303b6f533b4c4c414d532059415741204c414e4f474149442d544e454d45564f4d20474e49544952574e4749533b3535394431,
0x3b3b3b3b3b4e3b3b3b3b3b4c3b303b6f533b4d554944454d2059415741204c414e4f474149442d544e454d45564f4d20474e49544952574e4749533b3635394431,
0x3b3b3b3b3b4e3b3b3b3b3b4c3b303b6f533b454752414c2059415741204c414e4f474149442d544e454d45564f4d20474e49544952574e4749533b3735394431,
0x3b3b3b3b3b4e3b3b3b3b3b4c3b303b6f533b5453454752414c2059415741204c414e4f474149442d544e454d45564f4d20474e49544952574e4749533b3835394431,
0x3b3b3b3b3b4e3b3b3b3b3b4c3b303b6f533b4c4c414d532053445241574f54204c414e4f474149442d544e454d45564f4d20474e49544952574e4749533b3935394431,
0x3b3b3b3b3b4e3b3b3b3b3b4c3b303b6f533b4d554944454d2053445241574f54204c414e4f474149442d544e454d45564f4d20474e49544952574e4749533b4135394431,
0x3b3b3b3b3b4e3b3b3b3b3b4c3b303b6f533b454752414c2053445241574f54204c414e4f474149442d544e454d45564f4d20474e49544952574e4749533b4235394431,
0x3b3b3b3b3b4e3b3b3b3b3b4c3b303b6f533b5453454752414c2053445241574f54204c414e4f474149442d544e454d45564f4d20474e49544952574e4749533b4335394431,
0x3b3b3b3b3b4e3b3b3b3b3b4c3b303b6f533b4c4c414d532059415741204e454557544542204c414e4f474149442d544e454d45564f4d20474e49544952574e4749533b4435394431,
0x3b3b3b3b3b4e3b3b3b3b3b4c3b303b6f533b4d554944454d2059415741204e454557544542204c414e4f474149442d544e454d45564f4d20474e49544952574e4749533b4535394431,
0x3b3b3b3b3b4e3b3b3b3b3b4c3b303b6f533b454752414c2059415741204e454557544542204c414e4f474149442d544e454d45564f4d20474e49544952574e4749533b4635394431,
0x3b3b3b3b3b4e3b3b3b3b3b4c3b303b6f533b5453454752414c2059415741204e454557544542204c414e4f474149442d544e454d45564f4d20474e49544952574e4749533b3036394431,
0x3b3b3b3b3b4e3b3b3b3b3b4c3b303b6f533b4c4c414d532053445241574f54204e454557544542204c414e4f474149442d544e454d45564f4d20474e49544952574e4749533b3136394431,
0x3b3b3b3b3b4e3b3b3b3b3b4c3b303b6f533b4d554944454d2053445241574f54204e454557544542204c414e4f474149442d544e454d45564f4d20474e49544952574e4749533b3236394431,
0x3b3b3b3b3b4e3b3b3b3b3b4c3b303b6f533b454752414c2053445241574f54204e454557544542204c414e4f474149442d544e454d45564f4d20474e49544952574e4749533b3336394431,
0x3b3b3b3b3b4e3b3b3b3b3b4c3b303b6f533b5453454752414c2053445241574f54204e454557544542204c414e4f474149442d544e454d45564f4d20474e49544952574e4749533b3436394431,
0x3b3b3b3b3b4e3b3b3b3b3b4c3b303b6f533b4c4c414d5320544847494152545320454c474e495320454e414c50524f4f4c462d544e454d45564f4d20474e49544952574e4749533b3536394431,
0x3b3b3b3b3b4e3b3b3b3b3b4c3b303b6f533b4d554944454d20544847494152545320454c474e495320454e414c50524f4f4c462d544e454d45564f4d20474e49544952574e4749533b3636394431,
0x3b3b3b3b3b4e3b3b3b3b3b4c3b303b6f533b454752414c20544847494152545320454c474e495320454e414c50524f4f4c462d544e454d45564f4d20474e49544952574e4749533b3736394431,
0x3b3b3b3b3b4e3b3b3b3b3b4c3b303b6f533b5453454752414c20544847494152545320454c474e495320454e414c50524f4f4c462d544e454d45564f4d20474e49544952574e4749533b3836394431,
0x3b3b3b3b3b4e3b3b3b3b3b4c3b303b6f533b58454c4620545349525720454c474e495320454e414c50524f4f4c462d544e454d45564f4d20474e49544952574e4749533b3936394431,
0x3b3b3b3b3b4e3b3b3b3b3b4c3b303b6f533b544847494152545320454c42554f4420454e414c50524f4f4c462d544e454d45564f4d20474e49544952574e4749533b4136394431,
0x3b3b3b3b3b4e3b3b3b3b3b4c3b303b6f533b58454c4620545349525720454c42554f4420454e414c50524f4f4c462d544e454d45564f4d20474e49544952574e4749533b4236394431,
0x3b3b3b3b3b4e3b3b3b3b3b4c3b303b6f533b474e4954414e5245544c4120454c42554f4420454e414c50524f4f4c462d544e454d45564f4d20474e49544952574e4749533b4336394431,
0x3b3b3b3b3b4e3b3b3b3b3b4c3b303b6f533b58454c4620545349525720474e4954414e5245544c4120454c42554f4420454e414c50524f4f4c462d544e454d45564f4d20474e49544952574e4749533b4436394431,
0x3b3b3b3b3b4e3b3b3b3b3b4c3b303b6f533b53534f524320454e414c50524f4f4c462d544e454d45564f4d20474e49544952574e4749533b4536394431,
0x3b3b3b3b3b4e3b3b3b3b3b4c3b303b6f533b544e454d45564f4d20544847494152545320454c5049525420454e414c50524f4f4c462d544e454d45564f4d20474e49544952574e4749533b4636394431,
0x3b3b3b3b3b4e3b3b3b3b3b4c3b303b6f533b58454c4620545349525720454c5049525420454e414c50524f4f4c462d544e454d45564f4d20474e49544952574e4749533b3037394431,
0x3b3b3b3b3b4e3b3b3b3b3b4c3b303b6f533b544e454d45564f4d20474e4954414e5245544c4120454c5049525420454e414c50524f4f4c462d544e454d45564f4d20474e49544952574e4749533b3137394431,
0x3b3b3b3b3b4e3b3b3b3b3b4c3b303b6f533b58454c4620545349525720474e4954414e5245544c4120454c5049525420454e414c50524f4f4c462d544e454d45564f4d20474e49544952574e4749533b3237394431,
0x3b3b3b3b3b4e3b3b3b3b3b4c3b303b6f533b444e454220454e414c50524f4f4c462d544e454d45564f4d20474e49544952574e4749533b3337394431,
0x3b3b3b3b3b4e3b3b3b3b3b4c3b303b6f533b4c4c414d532052454e524f4320454e414c50524f4f4c462d544e454d45564f4d20474e49544952574e4749533b3437394431,
0x3b3b3b3b3b4e3b3b3b3b3b4c3b303b6f533b4d554944454d2052454e524f4320454e414c50524f4f4c462d544e454d45564f4d20474e49544952574e4749533b3537394431,
0x3b3b3b3b3b4e3b3b3b3b3b4c3b303b6f533b454752414c2052454e524f4320454e414c50524f4f4c462d544e454d45564f4d20474e49544952574e4749533b3637394431,
0x3b3b3b3b3b4e3b3b3b3b3b4c3b303b6f533b4b4345484320454e414c50524f4f4c462d544e454d45564f4d20474e49544952574e4749533b3737394431,
0x3b3b3b3b3b4e3b3b3b3b3b4c3b303b6f533b4c4c414d5320584f4220454e414c50524f4f4c462d544e454d45564f4d20474e49544952574e4749533b3837394431,
0x3b3b3b3b3b4e3b3b3b3b3b4c3b303b6f533b4d554944454d20584f4220454e414c50524f4f4c462d544e454d45564f4d20474e49544952574e4749533b3937394431,
0x3b3b3b3b3b4e3b3b3b3b3b4c3b303b6f533b454752414c20584f4220454e414c50524f4f4c462d544e454d45564f4d20474e49544952574e4749533b4137394431,
0x3b3b3b3b3b4e3b3b3b3b3b4c3b303b6f533b4c4c414d532047415a47495a20454e414c50524f4f4c462d544e454d45564f4d20474e49544952574e4749533b4237394431,
0x3b3b3b3b3b4e3b3b3b3b3b4c3b303b6f533b4d554944454d2047415a47495a20454e414c50524f4f4c462d544e454d45564f4d20474e49544952574e4749533b4337394431,
0x3b3b3b3b3b4e3b3b3b3b3b4c3b303b6f533b454752414c2047415a47495a20454e414c50524f4f4c462d544e454d45564f4d20474e49544952574e4749533b4437394431,
0x3b3b3b3b3b4e3b3b3b3b3b4c3b303b6f533b4c4c414d5320534b41455020454e414c50524f4f4c462d544e454d45564f4d20474e49544952574e4749533b4537394431,
0x3b3b3b3b3b4e3b3b3b3b3b4c3b303b6f533b4d554944454d20534b41455020454e414c50524f4f4c462d544e454d45564f4d20474e49544952574e4749533b4637394431,
0x3b3b3b3b3b4e3b3b3b3b3b4c3b303b6f533b454752414c20534b41455020454e414c50524f4f4c462d544e454d45564f4d20474e49544952574e4749533b3038394431,
0x3b3b3b3b3b4e3b3b3b3b3b4c3b303b6f533b454c474e495320454e414c50524f4f4c462d4e4f495441544f5220454e414c50524f4f4c462d4c455641525420474e49544952574e4749533b3138394431,
0x3b3b3b3b3b4e3b3b3b3b3b4c3b303b6f533b454c42554f4420454e414c50524f4f4c462d4e4f495441544f5220454e414c50524f4f4c462d4c455641525420474e49544952574e4749533b3238394431,
0x3b3b3b3b3b4e3b3b3b3b3b4c3b303b6f533b474e4954414e5245544c4120454e414c50524f4f4c462d4e4f495441544f5220454e414c50524f4f4c462d4c455641525420474e49544952574e4749533b3338394431,
0x3b3b3b3b3b4e3b3b3b3b3b4c3b303b6f533b454c474e495320454e414c504c4c41572d4e4f495441544f5220454e414c50524f4f4c462d4c455641525420474e49544952574e4749533b3438394431,
0x3b3b3b3b3b4e3b3b3b3b3b4c3b303b6f533b454c42554f4420454e414c504c4c41572d4e4f495441544f5220454e414c50524f4f4c462d4c455641525420474e49544952574e4749533b3538394431,
0x3b3b3b3b3b4e3b3b3b3b3b4c3b303b6f533b474e4954414e5245544c4120454e414c504c4c41572d4e4f495441544f5220454e414c50524f4f4c462d4c455641525420474e49544952574e4749533b3638394431,
0x3b3b3b3b3b4e3b3b3b3b3b4c3b303b6f533b474e494b41485320454e414c50524f4f4c462d4c455641525420474e49544952574e4749533b3738394431,
0x3b3b3b3b3b4e3b3b3b3b3b4c3b303b6f533b4c4c414d53205245545241555120455652554320454e414c504c4c41572d544e454d45564f4d20474e49544952574e4749533b3838394431,
0x3b3b3b3b3b4e3b3b3b3b3b4c3b303b6f533b4d554944454d205245545241555120455652554320454e414c504c4c41572d544e454d45564f4d20474e49544952574e4749533b3938394431,
0x3b3b3b3b3b4e3b3b3b3b3b4c3b303b6f533b454752414c205245545241555120455652554320454e414c504c4c41572d544e454d45564f4d20474e49544952574e4749533b4138394431,
0x3b3b3b3b3b4e3b3b3b3b3b4c3b303b6f533b5453454752414c205245545241555120455652554320454e414c504c4c41572d544e454d45564f4d20474e49544952574e4749533b4238394431,
0x3b3b3b3b3b4e3b3b3b3b3b4c3b303b6f533b4c4c414d5320454c435249432d464c414820455652554320454e414c504c4c41572d544e454d45564f4d20474e49544952574e4749533b4338394431,
0x3b3b3b3b3b4e3b3b3b3b3b4c3b303b6f533b4d554944454d20454c435249432d464c414820455652554320454e414c504c4c41572d544e454d45564f4d20474e49544952574e4749533b4438394431,
0x3b3b3b3b3b4e3b3b3b3b3b4c3b303b6f533b454752414c20454c435249432d464c414820455652554320454e414c504c4c41572d544e454d45564f4d20474e49544952574e4749533b4538394431,
0x3b3b3b3b3b4e3b3b3b3b3b4c3b303b6f533b5453454752414c20454c435249432d464c414820455652554320454e414c504c4c41572d544e454d45564f4d20474e49544952574e4749533b4638394431,
0x3b3b3b3b3b4e3b3b3b3b3b4c3b303b6f533b4c4c414d5320454c4352494320524554524155512d454552485420455652554320454e414c504c4c41572d544e454d45564f4d20474e49544952574e4749533b3039394431,
0x3b3b3b3b3b4e3b3b3b3b3b4c3b303b6f533b4d554944454d20454c4352494320524554524155512d454552485420455652554320454e414c504c4c41572d544e454d45564f4d20474e49544952574e4749533b3139394431,
0x3b3b3b3b3b4e3b3b3b3b3b4c3b303b6f533b4c4c414d5320504d554820454e414c504c4c41572d544e454d45564f4d20474e49544952574e4749533b3239394431,
0x3b3b3b3b3b4e3b3b3b3b3b4c3b303b6f533b4d554944454d20504d554820454e414c504c4c41572d544e454d45564f4d20474e49544952574e4749533b3339394431,
0x3b3b3b3b3b4e3b3b3b3b3b4c3b303b6f533b454752414c20504d554820454e414c504c4c41572d544e454d45564f4d20474e49544952574e4749533b3439394431,
0x3b3b3b3b3b4e3b3b3b3b3b4c3b303b6f533b4c4c414d5320504f4f4c20454e414c504c4c41572d544e454d45564f4d20474e49544952574e4749533b3539394431,
0x3b3b3b3b3b4e3b3b3b3b3b4c3b303b6f533b4d554944454d20504f4f4c20454e414c504c4c41572d544e454d45564f4d20474e49544952574e4749533b3639394431,
0x3b3b3b3b3b4e3b3b3b3b3b4c3b303b6f533b454752414c20504f4f4c20454e414c504c4c41572d544e454d45564f4d20474e49544952574e4749533b3739394431,
0x3b3b3b3b3b4e3b3b3b3b3b4c3b303b6f533b454c42554f44204c4c414d5320504f4f4c20454e414c504c4c41572d544e454d45564f4d20474e49544952574e4749533b3839394431,
0x3b3b3b3b3b4e3b3b3b3b3b4c3b303b6f533b4c4c414d5320454c42554f44204556525543204556415720454e414c504c4c41572d544e454d45564f4d20474e49544952574e4749533b3939394431,
0x3b3b3b3b3b4e3b3b3b3b3b4c3b303b6f533b4d554944454d20454c42554f44204556525543204556415720454e414c504c4c41572d544e454d45564f4d20474e49544952574e4749533b4139394431,
0x3b3b3b3b3b4e3b3b3b3b3b4c3b303b6f533b454752414c20454c42554f44204556525543204556415720454e414c504c4c41572d544e454d45564f4d20474e49544952574e4749533b4239394431,
0x3b3b3b3b3b4e3b3b3b3b3b4c3b303b6f533b4c4c414d5320454c50495254204556525543204556415720454e414c504c4c41572d544e454d45564f4d20474e49544952574e4749533b4339394431,
0x3b3b3b3b3b4e3b3b3b3b3b4c3b303b6f533b4d554944454d20454c50495254204556525543204556415720454e414c504c4c41572d544e454d45564f4d20474e49544952574e4749533b4439394431,
0x3b3b3b3b3b4e3b3b3b3b3b4c3b303b6f533b454752414c20454c50495254204556525543204556415720454e414c504c4c41572d544e454d45564f4d20474e49544952574e4749533b4539394431,
0x3b3b3b3b3b4e3b3b3b3b3b4c3b303b6f533b5448474941525453204e45485420455652554320454e414c504c4c41572d544e454d45564f4d20474e49544952574e4749533b4639394431,
0x3b3b3b3b3b4e3b3b3b3b3b4c3b303b6f533b4c4c414d532053534f52432044455652554320454e414c504c4c41572d544e454d45564f4d20474e49544952574e4749533b3041394431,
0x3b3b3b3b3b4e3b3b3b3b3b4c3b303b6f533b4d554944454d2053534f52432044455652554320454e414c504c4c41572d544e454d45564f4d20474e49544952574e4749533b3141394431,
0x3b3b3b3b3b4e3b3b3b3b3b4c3b303b6f533b454c474e495320454e414c504c4c41572d4e4f495441544f5220474e49544952574e4749533b3241394431,
0x3b3b3b3b3b4e3b3b3b3b3b4c3b303b6f533b454c42554f4420454e414c504c4c41572d4e4f495441544f5220474e49544952574e4749533b3341394431,
0x3b3b3b3b3b4e3b3b3b3b3b4c3b303b6f533b4554414e5245544c4120454e414c504c4c41572d4e4f495441544f5220474e49544952574e4749533b3441394431,
0x3b3b3b3b3b4e3b3b3b3b3b4c3b303b6f533b474e494b41485320454e414c504c4c41572d544e454d45564f4d20474e49544952574e4749533b3541394431,
0x3b3b3b3b3b4e3b3b3b3b3b4c3b303b6f533b4c4c415720544e4f524620474e495454494820455652554320454e414c504c4c41572d544e454d45564f4d20474e49544952574e4749533b3641394431,
0x3b3b3b3b3b4e3b3b3b3b3b4c3b303b6f533b4c4c415720544e4f524620474e495454494820504d554820454e414c504c4c41572d544e454d45564f4d20474e49544952574e4749533b3741394431,
0x3b3b3b3b3b4e3b3b3b3b3b4c3b303b6f533b4c4c415720544e4f524620474e495454494820504f4f4c20454e414c504c4c41572d544e454d45564f4d20474e49544952574e4749533b3841394431,
0x3b3b3b3b3b4e3b3b3b3b3b4c3b303b6f533b4c4c415720544e4f524620474e4954544948204556415720454e414c504c4c41572d544e454d45564f4d20474e49544952574e4749533b3941394431,
0x3b3b3b3b3b4e3b3b3b3b3b4c3b303b6f533b4c4c415720544e4f524620474e495454494820454c474e495320454e414c504c4c41572d4e4f495441544f5220474e49544952574e4749533b4141394431,
0x3b3b3b3b3b4e3b3b3b3b3b4c3b303b6f533b4c4c415720544e4f524620474e495454494820454c42554f4420454e414c504c4c41572d4e4f495441544f5220474e49544952574e4749533b4241394431,
0x3b3b3b3b3b4e3b3b3b3b3b4c3b303b6f533b4c4c415720544e4f524620474e495454494820474e4954414e5245544c4120454e414c504c4c41572d4e4f495441544f5220474e49544952574e4749533b4341394431,
0x3b3b3b3b3b4e3b3b3b3b3b4c3b303b6f533b545345484320474e495454494820455652554320454e414c504c4c41572d544e454d45564f4d20474e49544952574e4749533b4441394431,
0x3b3b3b3b3b4e3b3b3b3b3b4c3b303b6f533b545345484320474e495454494820504d554820454e414c504c4c41572d544e454d45564f4d20474e49544952574e4749533b4541394431,
0x3b3b3b3b3b4e3b3b3b3b3b4c3b303b6f533b545345484320474e495454494820504f4f4c20454e414c504c4c41572d544e454d45564f4d20474e49544952574e4749533b4641394431,
0x3b3b3b3b3b4e3b3b3b3b3b4c3b303b6f533b545345484320474e4954544948204556415720454e414c504c4c41572d544e454d45564f4d20474e49544952574e4749533b3042394431,
0x3b3b3b3b3b4e3b3b3b3b3b4c3b303b6f533b545345484320474e495454494820454c474e495320454e414c504c4c41572d4e4f495441544f5220474e49544952574e4749533b3142394431,
0x3b3b3b3b3b4e3b3b3b3b3b4c3b303b6f533b545345484320474e495454494820454c42554f4420454e414c504c4c41572d4e4f495441544f5220474e49544952574e4749533b3242394431,
0x3b3b3b3b3b4e3b3b3b3b3b4c3b303b6f533b545345484320474e495454494820474e4954414e5245544c4120454e414c504c4c41572d4e4f495441544f5220474e49544952574e4749533b3342394431,
0x3b3b3b3b3b4e3b3b3b3b3b4c3b303b6f533b4c4c414d532048544150204c414e4f47414944204556415720454e414c504c4c41572d544e454d45564f4d20474e49544952574e4749533b3442394431,
0x3b3b3b3b3b4e3b3b3b3b3b4c3b303b6f533b4d554944454d2048544150204c414e4f47414944204556415720454e414c504c4c41572d544e454d45564f4d20474e49544952574e4749533b3542394431,
0x3b3b3b3b3b4e3b3b3b3b3b4c3b303b6f533b454752414c2048544150204c414e4f47414944204556415720454e414c504c4c41572d544e454d45564f4d20474e49544952574e4749533b3642394431,
0x3b3b3b3b3b4e3b3b3b3b3b4c3b303b6f533b4c4c414d5320474e494c49454320474e495454494820455652554320454e414c50524f4f4c462d544e454d45564f4d20474e49544952574e4749533b3742394431,
0x3b3b3b3b3b4e3b3b3b3b3b4c3b303b6f533b454752414c20474e494c49454320474e495454494820455652554320454e414c50524f4f4c462d544e454d45564f4d20474e49544952574e4749533b3842394431,
0x3b3b3b3b3b4e3b3b3b3b3b4c3b303b6f533b454c42554f44204c4c414d5320474e494c49454320474e495454494820504d554820454e414c50524f4f4c462d544e454d45564f4d20474e49544952574e4749533b3942394431,
0x3b3b3b3b3b4e3b3b3b3b3b4c3b303b6f533b454c42554f4420454752414c20474e494c49454320474e495454494820504d554820454e414c50524f4f4c462d544e454d45564f4d20474e49544952574e4749533b4142394431,
0x3b3b3b3b3b4e3b3b3b3b3b4c3b303b6f533b454c50495254204c4c414d5320474e494c49454320474e495454494820504d554820454e414c50524f4f4c462d544e454d45564f4d20474e49544952574e4749533b4242394431,
0x3b3b3b3b3b4e3b3b3b3b3b4c3b303b6f533b454c5049525420454752414c20474e494c49454320474e495454494820504d554820454e414c50524f4f4c462d544e454d45564f4d20474e49544952574e4749533b4342394431,
0x3b3b3b3b3b4e3b3b3b3b3b4c3b303b6f533b454c474e4953204c4c414d5320474e494c49454320474e495454494820504f4f4c20454e414c50524f4f4c462d544e454d45564f4d20474e49544952574e4749533b4442394431,
0x3b3b3b3b3b4e3b3b3b3b3b4c3b303b6f533b454c474e495320454752414c20474e494c49454320474e495454494820504f4f4c20454e414c50524f4f4c462d544e454d45564f4d20474e49544952574e4749533b4542394431,
0x3b3b3b3b3b4e3b3b3b3b3b4c3b303b6f533b454c42554f44204c4c414d5320474e494c49454320474e495454494820504f4f4c20454e414c50524f4f4c462d544e454d45564f4d20474e49544952574e4749533b4642394431,
0x3b3b3b3b3b4e3b3b3b3b3b4c3b303b6f533b454c42554f4420454752414c20474e494c49454320474e495454494820504f4f4c20454e414c50524f4f4c462d544e454d45564f4d20474e49544952574e4749533b3043394431,
0x3b3b3b3b3b4e3b3b3b3b3b4c3b303b6f533b4c4c414d5320474e494c49454320474e4954544948204556415720454e414c50524f4f4c462d544e454d45564f4d20474e49544952574e4749533b3143394431,
0x3b3b3b3b3b4e3b3b3b3b3b4c3b303b6f533b454752414c20474e494c49454320474e4954544948204556415720454e414c50524f4f4c462d544e454d45564f4d20474e49544952574e4749533b3243394431,
0x3b3b3b3b3b4e3b3b3b3b3b4c3b303b6f533b474e494c49454320474e495454494820454c474e495320454e414c50524f4f4c462d4e4f495441544f5220474e49544952574e4749533b3343394431,
0x3b3b3b3b3b4e3b3b3b3b3b4c3b303b6f533b474e494c49454320474e495454494820454c42554f4420454e414c50524f4f4c462d4e4f495441544f5220474e49544952574e4749533b3443394431,
0x3b3b3b3b3b4e3b3b3b3b3b4c3b303b6f533b474e494c49454320474e495454494820474e4954414e5245544c4120454e414c50524f4f4c462d4e4f495441544f5220474e49544952574e4749533b3543394431,
0x3b3b3b3b3b4e3b3b3b3b3b4c3b303b6f533b4c4c414d5320524f4f4c4620474e495454494820455652554320454e414c50524f4f4c462d544e454d45564f4d20474e49544952574e4749533b3643394431,
0x3b3b3b3b3b4e3b3b3b3b3b4c3b303b6f533b454752414c20524f4f4c4620474e495454494820455652554320454e414c50524f4f4c462d544e454d45564f4d20474e49544952574e4749533b3743394431,
0x3b3b3b3b3b4e3b3b3b3b3b4c3b303b6f533b454c42554f44204c4c414d5320524f4f4c4620474e495454494820504d554820454e414c50524f4f4c462d544e454d45564f4d20474e49544952574e4749533b3843394431,
0x3b3b3b3b3b4e3b3b3b3b3b4c3b303b6f533b454c42554f4420454752414c20524f4f4c4620474e495454494820504d554820454e414c50524f4f4c462d544e454d45564f4d20474e49544952574e4749533b3943394431,
0x3b3b3b3b3b4e3b3b3b3b3b4c3b303b6f533b454c50495254204c4c414d5320454c5049525420524f4f4c4620474e495454494820504d554820454e414c50524f4f4c462d544e454d45564f4d20474e49544952574e4749533b4143394431,
0x3b3b3b3b3b4e3b3b3b3b3b4c3b303b6f533b454c5049525420454752414c20454c5049525420524f4f4c4620474e495454494820504d554820454e414c50524f4f4c462d544e454d45564f4d20474e49544952574e4749533b4243394431,
0x3b3b3b3b3b4e3b3b3b3b3b4c3b303b6f533b454c474e4953204c4c414d5320524f4f4c4620474e495454494820504f4f4c20454e414c50524f4f4c462d544e454d45564f4d20474e49544952574e4749533b4343394431,
0x3b3b3b3b3b4e3b3b3b3b3b4c3b303b6f533b454c474e495320454752414c20524f4f4c4620474e495454494820504f4f4c20454e414c50524f4f4c462d544e454d45564f4d20474e49544952574e4749533b4443394431,
0x3b3b3b3b3b4e3b3b3b3b3b4c3b303b6f533b454c42554f44204c4c414d5320524f4f4c4620474e495454494820504f4f4c20454e414c50524f4f4c462d544e454d45564f4d20474e49544952574e4749533b4543394431,
0x3b3b3b3b3b4e3b3b3b3b3b4c3b303b6f533b454c42554f4420454752414c20524f4f4c4620474e495454494820504f4f4c20454e414c50524f4f4c462d544e454d45564f4d20474e49544952574e4749533b4643394431,
0x3b3b3b3b3b4e3b3b3b3b3b4c3b303b6f533b4c4c414d5320524f4f4c4620474e4954544948204556415720454e414c50524f4f4c462d544e454d45564f4d20474e49544952574e4749533b3044394431,
0x3b3b3b3b3b4e3b3b3b3b3b4c3b303b6f533b454752414c20524f4f4c4620474e4954544948204556415720454e414c50524f4f4c462d544e454d45564f4d20474e49544952574e4749533b3144394431,
0x3b3b3b3b3b4e3b3b3b3b3b4c3b303b6f533b524f4f4c4620474e495454494820454c474e495320454e414c50524f4f4c462d4e4f495441544f5220474e49544952574e4749533b3244394431,
0x3b3b3b3b3b4e3b3b3b3b3b4c3b303b6f533b524f4f4c4620474e495454494820454c42554f4420454e414c50524f4f4c462d4e4f495441544f5220474e49544952574e4749533b3344394431,
0x3b3b3b3b3b4e3b3b3b3b3b4c3b303b6f533b524f4f4c4620474e495454494820474e4954414e5245544c4120454e414c50524f4f4c462d4e4f495441544f5220474e49544952574e4749533b3444394431,
0x3b3b3b3b3b4e3b3b3b3b3b4c3b303b6f533b4c4c414d5320455652554320454e414c50524f4f4c462d544e454d45564f4d20474e49544952574e4749533b3544394431,
0x3b3b3b3b3b4e3b3b3b3b3b4c3b303b6f533b4d554944454d20455652554320454e414c50524f4f4c462d544e454d45564f4d20474e49544952574e4749533b3644394431,
0x3b3b3b3b3b4e3b3b3b3b3b4c3b303b6f533b454752414c20455652554320454e414c50524f4f4c462d544e454d45564f4d20474e49544952574e4749533b3744394431,
0x3b3b3b3b3b4e3b3b3b3b3b4c3b303b6f533b5453454752414c20455652554320454e414c50524f4f4c462d544e454d45564f4d20474e49544952574e4749533b3844394431,
0x3b3b3b3b3b4e3b3b3b3b3b4c3b303b6f533b44454e49424d4f4320455652554320454e414c50524f4f4c462d544e454d45564f4d20474e49544952574e4749533b3944394431,
0x3b3b3b3b3b4e3b3b3b3b3b4c3b303b6f533b4c4c414d5320504d554820454e414c50524f4f4c462d544e454d45564f4d20474e49544952574e4749533b4144394431,
0x3b3b3b3b3b4e3b3b3b3b3b4c3b303b6f533b4c4c414d5320504f4f4c20454e414c50524f4f4c462d544e454d45564f4d20474e49544952574e4749533b4244394431,
0x3b3b3b3b3b4e3b3b3b3b3b4c3b303b6f533b454b414e53204556415720454e414c50524f4f4c462d544e454d45564f4d20474e49544952574e4749533b4344394431,
0x3b3b3b3b3b4e3b3b3b3b3b4c3b303b6f533b4c4c414d53204556415720454e414c50524f4f4c462d544e454d45564f4d20474e49544952574e4749533b4444394431,
0x3b3b3b3b3b4e3b3b3b3b3b4c3b303b6f533b454752414c204556415720454e414c50524f4f4c462d544e454d45564f4d20474e49544952574e4749533b4544394431,
0x3b3b3b3b3b4e3b3b3b3b3b4c3b303b6f533b454c474e495320454e414c50524f4f4c462d4e4f495441544f5220474e49544952574e4749533b4644394431,
0x3b3b3b3b3b4e3b3b3b3b3b4c3b303b6f533b454c42554f4420454e414c50524f4f4c462d4e4f495441544f5220474e49544952574e4749533b3045394431,
0x3b3b3b3b3b4e3b3b3b3b3b4c3b303b6f533b474e4954414e5245544c4120454e414c50524f4f4c462d4e4f495441544f5220474e49544952574e4749533b3145394431,
0x3b3b3b3b3b4e3b3b3b3b3b4c3b303b6f533b4c454c4c4152415020474e494b41485320454e414c50524f4f4c462d544e454d45564f4d20474e49544952574e4749533b3245394431,
0x3b3b3b3b3b4e3b3b3b3b3b4c3b303b6f533b454c474e4953204c4c414d5320454c43524943204d524120454e414c504c4c41572d544e454d45564f4d20474e49544952574e4749533b3345394431,
0x3b3b3b3b3b4e3b3b3b3b3b4c3b303b6f533b454c474e4953204d554944454d20454c43524943204d524120454e414c504c4c41572d544e454d45564f4d20474e49544952574e4749533b3445394431,
0x3b3b3b3b3b4e3b3b3b3b3b4c3b303b6f533b454c42554f44204c4c414d5320454c43524943204d524120454e414c504c4c41572d544e454d45564f4d20474e49544952574e4749533b3545394431,
0x3b3b3b3b3b4e3b3b3b3b3b4c3b303b6f533b454c42554f44204d554944454d20454c43524943204d524120454e414c504c4c41572d544e454d45564f4d20474e49544952574e4749533b3645394431,
0x3b3b3b3b3b4e3b3b3b3b3b4c3b303b6f533b454c474e4953204c4c414d53204c4c415720474e495454494820454c43524943204d524120454e414c50524f4f4c462d544e454d45564f4d20474e49544952574e4749533b3745394431,
0x3b3b3b3b3b4e3b3b3b3b3b4c3b303b6f533b454c474e4953204d554944454d204c4c415720474e495454494820454c43524943204d524120454e414c50524f4f4c462d544e454d45564f4d20474e49544952574e4749533b3845394431,
0x3b3b3b3b3b4e3b3b3b3b3b4c3b303b6f533b454c474e495320454752414c204c4c415720474e495454494820454c43524943204d524120454e414c50524f4f4c462d544e454d45564f4d20474e49544952574e4749533b3945394431,
0x3b3b3b3b3b4e3b3b3b3b3b4c3b303b6f533b454c42554f44204c4c414d53204c4c415720474e495454494820454c43524943204d524120454e414c50524f4f4c462d544e454d45564f4d20474e49544952574e4749533b4145394431,
0x3b3b3b3b3b4e3b3b3b3b3b4c3b303b6f533b454c42554f44204d554944454d204c4c415720474e495454494820454c43524943204d524120454e414c50524f4f4c462d544e454d45564f4d20474e49544952574e4749533b4245394431,
0x3b3b3b3b3b4e3b3b3b3b3b4c3b303b6f533b454c42554f4420454752414c204c4c415720474e495454494820454c43524943204d524120454e414c50524f4f4c462d544e454d45564f4d20474e49544952574e4749533b4345394431]

/-- src/u5e/props/UnicodeData.txt lines 27137-27392. -/
def rawUcd106 : List Nat := [
0x3b3b3b3b3b4e3b3b3b3b3b4c3b303b6f533b454c474e495320544e4f524620454c4352494320545349525720454e414c504c4c41572d544e454d45564f4d20474e49544952574e4749533b4445394431,
0x3b3b3b3b3b4e3b3b3b3b3b4c3b303b6f533b454c42554f4420544e4f524620454c4352494320545349525720454e414c504c4c41572d544e454d45564f4d20474e49544952574e4749533b4545394431,
0x3b3b3b3b3b4e3b3b3b3b3b4c3b303b6f533b454c474e4953204c4c415720474e495454494820454c4352494320545349525720454e414c50524f4f4c462d544e454d45564f4d20474e49544952574e4749533b4645394431,
0x3b3b3b3b3b4e3b3b3b3b3b4c3b303b6f533b454c42554f44204c4c415720474e495454494820454c4352494320545349525720454e414c50524f4f4c462d544e454d45564f4d20474e49544952574e4749533b3046394431,
0x3b3b3b3b3b4e3b3b3b3b3b4c3b303b6f533b454c474e49532053454c43524943205245474e494620454e414c504c4c41572d544e454d45564f4d20474e49544952574e4749533b3146394431,
0x3b3b3b3b3b4e3b3b3b3b3b4c3b303b6f533b454c42554f442053454c43524943205245474e494620454e414c504c4c41572d544e454d45564f4d20474e49544952574e4749533b3246394431,
0x3b3b3b3b3b4e3b3b3b3b3b4c3b303b6f533b454c474e4953204c4c415720474e49545449482053454c43524943205245474e494620454e414c50524f4f4c462d544e454d45564f4d20474e49544952574e4749533b3346394431,
0x3b3b3b3b3b4e3b3b3b3b3b4c3b303b6f533b454c42554f44204c4c415720474e49545449482053454c43524943205245474e494620454e414c50524f4f4c462d544e454d45564f4d20474e49544952574e4749533b3446394431,
0x3b3b3b3b3b4e3b3b3b3b3b4c3b303b6f533b4c4c414d532044414548574f5252412043494d414e594420474e49544952574e4749533b3546394431,
0x3b3b3b3b3b4e3b3b3b3b3b4c3b303b6f533b454752414c2044414548574f5252412043494d414e594420474e49544952574e4749533b3646394431,
0x3b3b3b3b3b4e3b3b3b3b3b4c3b303b6f533b545341462043494d414e594420474e49544952574e4749533b3746394431,
0x3b3b3b3b3b4e3b3b3b3b3b4c3b303b6f533b574f4c532043494d414e594420474e49544952574e4749533b3846394431,
0x3b3b3b3b3b4e3b3b3b3b3b4c3b303b6f533b45534e45542043494d414e594420474e49544952574e4749533b3946394431,
0x3b3b3b3b3b4e3b3b3b3b3b4c3b303b6f533b444558414c45522043494d414e594420474e49544952574e4749533b4146394431,
0x3b3b3b3b3b4e3b3b3b3b3b4c3b303b6f533b53554f454e41544c554d49532043494d414e594420474e49544952574e4749533b4246394431,
0x3b3b3b3b3b4e3b3b3b3b3b4c3b303b6f533b474e4954414e5245544c412053554f454e41544c554d49532043494d414e594420474e49544952574e4749533b4346394431,
0x3b3b3b3b3b4e3b3b3b3b3b4c3b303b6f533b454d495420524548544f2059524556452043494d414e594420474e49544952574e4749533b4446394431,
0x3b3b3b3b3b4e3b3b3b3b3b4c3b303b6f533b4c4155444152472043494d414e594420474e49544952574e4749533b4546394431,
0x3b3b3b3b3b4e3b3b3b3b3b4c3b303b6f533b4441454820474e49544952574e4749533b4646394431,
0x3b3b3b3b3b4e3b3b3b3b3b4d534e3b303b6e4d3b4d4952204441454820474e49544952574e4749533b3030414431,
0x3b3b3b3b3b4e3b3b3b3b3b4d534e3b303b6e4d3b544847494152545320454e414c504c4c41572d544e454d45564f4d204441454820474e49544952574e4749533b3130414431,
0x3b3b3b3b3b4e3b3b3b3b3b4d534e3b303b6e4d3b544c495420454e414c504c4c41572d544e454d45564f4d204441454820474e49544952574e4749533b3230414431,
0x3b3b3b3b3b4e3b3b3b3b3b4d534e3b303b6e4d3b544847494152545320454e414c50524f4f4c462d544e454d45564f4d204441454820474e49544952574e4749533b3330414431,
0x3b3b3b3b3b4e3b3b3b3b3b4d534e3b303b6e4d3b455652554320454e414c504c4c41572d544e454d45564f4d204441454820474e49544952574e4749533b3430414431,
0x3b3b3b3b3b4e3b3b3b3b3b4d534e3b303b6e4d3b455652554320454e414c50524f4f4c462d544e454d45564f4d204441454820474e49544952574e4749533b3530414431,
0x3b3b3b3b3b4e3b3b3b3b3b4d534e3b303b6e4d3b454c4352494320544e454d45564f4d204441454820474e49544952574e4749533b3630414431,
0x3b3b3b3b3b4e3b3b3b3b3b4d534e3b303b6e4d3b474e49544c49542044524157524f462045534f4e204e4f495449534f50204e4f49544345524944204543414620474e49544952574e4749533b3730414431,
0x3b3b3b3b3b4e3b3b3b3b3b4d534e3b303b6e4d3b4e574f4420524f2050552045534f4e204e4f495449534f50204e4f49544345524944204543414620474e49544952574e4749533b3830414431,
0x3b3b3b3b3b4e3b3b3b3b3b4d534e3b303b6e4d3b474e49544c4954204e574f4420524f2050552045534f4e204e4f495449534f50204e4f49544345524944204543414620474e49544952574e4749533b3930414431,
0x3b3b3b3b3b4e3b3b3b3b3b4d534e3b303b6e4d3b50552054484749415254532053574f524245594520474e49544952574e4749533b4130414431,
0x3b3b3b3b3b4e3b3b3b3b3b4d534e3b303b6e4d3b4c41525455454e2054484749415254532053574f524245594520474e49544952574e4749533b4230414431,
0x3b3b3b3b3b4e3b3b3b3b3b4d534e3b303b6e4d3b4e574f442054484749415254532053574f524245594520474e49544952574e4749533b4330414431,
0x3b3b3b3b3b4e3b3b3b3b3b4d534e3b303b6e4d3b4e574f44204c41525455454e2053574f524245594520594d4145524420474e49544952574e4749533b4430414431,
0x3b3b3b3b3b4e3b3b3b3b3b4d534e3b303b6e4d3b4c41525455454e204e574f442053574f524245594520594d4145524420474e49544952574e4749533b4530414431,
0x3b3b3b3b3b4e3b3b3b3b3b4d534e3b303b6e4d3b4c41525455454e2050552053574f524245594520594d4145524420474e49544952574e4749533b4630414431,
0x3b3b3b3b3b4e3b3b3b3b3b4d534e3b303b6e4d3b5055204c41525455454e2053574f524245594520594d4145524420474e49544952574e4749533b3031414431,
0x3b3b3b3b3b4e3b3b3b3b3b4d534e3b303b6e4d3b4c41525455454e204441454845524f4620474e49544952574e4749533b3131414431,
0x3b3b3b3b3b4e3b3b3b3b3b4d534e3b303b6e4d3b544341544e4f43204441454845524f4620474e49544952574e4749533b3231414431,
0x3b3b3b3b3b4e3b3b3b3b3b4d534e3b303b6e4d3b44454c4b4e495257204441454845524f4620474e49544952574e4749533b3331414431,
0x3b3b3b3b3b4e3b3b3b3b3b4d534e3b303b6e4d3b4e45504f205345594520474e49544952574e4749533b3431414431,
0x3b3b3b3b3b4e3b3b3b3b3b4d534e3b303b6e4d3b44455a4545555153205345594520474e49544952574e4749533b3531414431,
0x3b3b3b3b3b4e3b3b3b3b3b4d534e3b303b6e4d3b4445534f4c43205345594520474e49544952574e4749533b3631414431,
0x3b3b3b3b3b4e3b3b3b3b3b4d534e3b303b6e4d3b454c474e4953204b4e494c422045594520474e49544952574e4749533b3731414431,
0x3b3b3b3b3b4e3b3b3b3b3b4d534e3b303b6e4d3b454c5049544c554d204b4e494c422045594520474e49544952574e4749533b3831414431,
0x3b3b3b3b3b4e3b3b3b3b3b4d534e3b303b6e4d3b4e45504f20464c4148205345594520474e49544952574e4749533b3931414431,
0x3b3b3b3b3b4e3b3b3b3b3b4d534e3b303b6e4d3b4e45504f2045444957205345594520474e49544952574e4749533b4131414431,
0x3b3b3b3b3b4e3b3b3b3b3b4d534e3b303b6e4d3b4445534f4c4320464c4148205345594520474e49544952574e4749533b4231414431,
0x3b3b3b3b3b4e3b3b3b3b3b4d534e3b303b6e4d3b544e454d45564f4d20474e494e45444957205345594520474e49544952574e4749533b4331414431,
0x3b3b3b3b3b4e3b3b3b3b3b4d534e3b303b6e4d3b4b4e49572045594520474e49544952574e4749533b4431414431,
0x3b3b3b3b3b4e3b3b3b3b3b4d534e3b303b6e4d3b50552053454853414c45594520474e49544952574e4749533b4531414431,
0x3b3b3b3b3b4e3b3b3b3b3b4d534e3b303b6e4d3b4e574f442053454853414c45594520474e49544952574e4749533b4631414431,
0x3b3b3b3b3b4e3b3b3b3b3b4d534e3b303b6e4d3b474e4952455454554c462053454853414c45594520474e49544952574e4749533b3032414431,
0x3b3b3b3b3b4e3b3b3b3b3b4d534e3b303b6e4d3b544847494152545320454e414c504c4c41572d455a414745594520474e49544952574e4749533b3132414431,
0x3b3b3b3b3b4e3b3b3b3b3b4d534e3b303b6e4d3b454c42554f4420544847494152545320454e414c504c4c41572d455a414745594520474e49544952574e4749533b3232414431,
0x3b3b3b3b3b4e3b3b3b3b3b4d534e3b303b6e4d3b474e4954414e5245544c4120544847494152545320454e414c504c4c41572d455a414745594520474e49544952574e4749533b3332414431,
0x3b3b3b3b3b4e3b3b3b3b3b4d534e3b303b6e4d3b544847494152545320454e414c50524f4f4c462d455a414745594520474e49544952574e4749533b3432414431,
0x3b3b3b3b3b4e3b3b3b3b3b4d534e3b303b6e4d3b454c42554f4420544847494152545320454e414c50524f4f4c462d455a414745594520474e49544952574e4749533b3532414431,
0x3b3b3b3b3b4e3b3b3b3b3b4d534e3b303b6e4d3b474e4954414e5245544c4120544847494152545320454e414c50524f4f4c462d455a414745594520474e49544952574e4749533b3632414431,
0x3b3b3b3b3b4e3b3b3b3b3b4d534e3b303b6e4d3b44455652554320454e414c504c4c41572d455a414745594520474e49544952574e4749533b3732414431,
0x3b3b3b3b3b4e3b3b3b3b3b4d534e3b303b6e4d3b44455652554320454e414c50524f4f4c462d455a414745594520474e49544952574e4749533b3832414431,
0x3b3b3b3b3b4e3b3b3b3b3b4d534e3b303b6e4d3b474e494c4352494320454e414c504c4c41572d455a414745594520474e49544952574e4749533b3932414431,
0x3b3b3b3b3b4e3b3b3b3b3b4d534e3b303b6e4d3b44454646555020534b4545484320474e49544952574e4749533b4132414431,
0x3b3b3b3b3b4e3b3b3b3b3b4d534e3b303b6e4d3b4c41525455454e20534b4545484320474e49544952574e4749533b4232414431,
0x3b3b3b3b3b4e3b3b3b3b3b4d534e3b303b6e4d3b44454b43555320534b4545484320474e49544952574e4749533b4332414431,
0x3b3b3b3b3b4e3b3b3b3b3b4d534e3b303b6e4d3b4847494820534b454548432045534e455420474e49544952574e4749533b4432414431,
0x3b3b3b3b3b4e3b3b3b3b3b4d534e3b303b6e4d3b454c4444494d20534b454548432045534e455420474e49544952574e4749533b4532414431,
0x3b3b3b3b3b4e3b3b3b3b3b4d534e3b303b6e4d3b574f4c20534b454548432045534e455420474e49544952574e4749533b4632414431,
0x3b3b3b3b3b4e3b3b3b3b3b4d534e3b303b6e4d3b5352414520474e49544952574e4749533b3033414431,
0x3b3b3b3b3b4e3b3b3b3b3b4d534e3b303b6e4d3b4c41525455454e2045534f4e20474e49544952574e4749533b3133414431,
0x3b3b3b3b3b4e3b3b3b3b3b4d534e3b303b6e4d3b544341544e4f432045534f4e20474e49544952574e4749533b3233414431,
0x3b3b3b3b3b4e3b3b3b3b3b4d534e3b303b6e4d3b53454c4b4e4952572045534f4e20474e49544952574e4749533b3333414431,
0x3b3b3b3b3b4e3b3b3b3b3b4d534e3b303b6e4d3b53454c474749572045534f4e20474e49544952574e4749533b3433414431,
0x3b3b3b3b3b4e3b3b3b3b3b4d534e3b303b6e4d3b54554f20474e49574f4c422052494120474e49544952574e4749533b3533414431,
0x3b3b3b3b3b4e3b3b3b3b3b4d534e3b303b6e4d3b4e4920474e494b4355532052494120474e49544952574e4749533b3633414431,
0x3b3b3b3b3b4e3b3b3b3b3b4c3b303b6f533b534e4f495441544f52204c4c414d5320574f4c422052494120474e49544952574e4749533b3733414431,
0x3b3b3b3b3b4e3b3b3b3b3b4c3b303b6f533b534e4f495441544f52204c4c414d53204b4355532052494120474e49544952574e4749533b3833414431,
0x3b3b3b3b3b4e3b3b3b3b3b4c3b303b6f533b454c41484e492048544145524220474e49544952574e4749533b3933414431,
0x3b3b3b3b3b4e3b3b3b3b3b4c3b303b6f533b454c414858452048544145524220474e49544952574e4749533b4133414431,
0x3b3b3b3b3b4e3b3b3b3b3b4d534e3b303b6e4d3b4c41525455454e204445534f4c43204854554f4d20474e49544952574e4749533b4233414431,
0x3b3b3b3b3b4e3b3b3b3b3b4d534e3b303b6e4d3b44524157524f46204445534f4c43204854554f4d20474e49544952574e4749533b4333414431,
0x3b3b3b3b3b4e3b3b3b3b3b4d534e3b303b6e4d3b544341544e4f43204445534f4c43204854554f4d20474e49544952574e4749533b4433414431,
0x3b3b3b3b3b4e3b3b3b3b3b4d534e3b303b6e4d3b454c494d53204854554f4d20474e49544952574e4749533b4533414431,
0x3b3b3b3b3b4e3b3b3b3b3b4d534e3b303b6e4d3b44454c4b4e49525720454c494d53204854554f4d20474e49544952574e4749533b4633414431,
0x3b3b3b3b3b4e3b3b3b3b3b4d534e3b303b6e4d3b4e45504f20454c494d53204854554f4d20474e49544952574e4749533b3034414431,
0x3b3b3b3b3b4e3b3b3b3b3b4d534e3b303b6e4d3b4e574f5246204854554f4d20474e49544952574e4749533b3134414431,
0x3b3b3b3b3b4e3b3b3b3b3b4d534e3b303b6e4d3b44454c4b4e495257204e574f5246204854554f4d20474e49544952574e4749533b3234414431,
0x3b3b3b3b3b4e3b3b3b3b3b4d534e3b303b6e4d3b4e45504f204e574f5246204854554f4d20474e49544952574e4749533b3334414431,
0x3b3b3b3b3b4e3b3b3b3b3b4d534e3b303b6e4d3b454c43524943204e45504f204854554f4d20474e49544952574e4749533b3434414431,
0x3b3b3b3b3b4e3b3b3b3b3b4d534e3b303b6e4d3b44524157524f46204e45504f204854554f4d20474e49544952574e4749533b3534414431,
0x3b3b3b3b3b4e3b3b3b3b3b4d534e3b303b6e4d3b44454c4b4e495257204e45504f204854554f4d20474e49544952574e4749533b3634414431,
0x3b3b3b3b3b4e3b3b3b3b3b4d534e3b303b6e4d3b4c41564f204e45504f204854554f4d20474e49544952574e4749533b3734414431,
0x3b3b3b3b3b4e3b3b3b3b3b4d534e3b303b6e4d3b44454c4b4e495257204c41564f204e45504f204854554f4d20474e49544952574e4749533b3834414431,
0x3b3b3b3b3b4e3b3b3b3b3b4d534e3b303b6e4d3b4e574159204c41564f204e45504f204854554f4d20474e49544952574e4749533b3934414431,
0x3b3b3b3b3b4e3b3b3b3b3b4d534e3b303b6e4d3b454c474e4154434552204e45504f204854554f4d20474e49544952574e4749533b4134414431,
0x3b3b3b3b3b4e3b3b3b3b3b4d534e3b303b6e4d3b44454c4b4e49525720454c474e4154434552204e45504f204854554f4d20474e49544952574e4749533b4234414431,
0x3b3b3b3b3b4e3b3b3b3b3b4d534e3b303b6e4d3b4e57415920454c474e4154434552204e45504f204854554f4d20474e49544952574e4749533b4334414431,
0x3b3b3b3b3b4e3b3b3b3b3b4d534e3b303b6e4d3b5353494b204854554f4d20474e49544952574e4749533b4434414431,
0x3b3b3b3b3b4e3b3b3b3b3b4d534e3b303b6e4d3b44524157524f46205353494b204854554f4d20474e49544952574e4749533b4534414431,
0x3b3b3b3b3b4e3b3b3b3b3b4d534e3b303b6e4d3b44454c4b4e495257205353494b204854554f4d20474e49544952574e4749533b4634414431,
0x3b3b3b3b3b4e3b3b3b3b3b4d534e3b303b6e4d3b45534e4554204854554f4d20474e49544952574e4749533b3035414431,
0x3b3b3b3b3b4e3b3b3b3b3b4d534e3b303b6e4d3b44524157524f462045534e4554204854554f4d20474e49544952574e4749533b3135414431,
0x3b3b3b3b3b4e3b3b3b3b3b4d534e3b303b6e4d3b44454b4355532045534e4554204854554f4d20474e49544952574e4749533b3235414431,
0x3b3b3b3b3b4e3b3b3b3b3b4d534e3b303b6e4d3b5245485445474f542044455353455250205350494c20474e49544952574e4749533b3335414431,
0x3b3b3b3b3b4e3b3b3b3b3b4d534e3b303b6e4d3b5245505055205245564f205245574f4c2050494c20474e49544952574e4749533b3435414431,
0x3b3b3b3b3b4e3b3b3b3b3b4d534e3b303b6e4d3b5245574f4c205245564f2052455050552050494c20474e49544952574e4749533b3535414431,
0x3b3b3b3b3b4e3b3b3b3b3b4d534e3b303b6e4d3b5352454e524f43204854554f4d20474e49544952574e4749533b3635414431,
0x3b3b3b3b3b4e3b3b3b3b3b4d534e3b303b6e4d3b454c474e49532053454c4b4e495257204854554f4d20474e49544952574e4749533b3735414431,
0x3b3b3b3b3b4e3b3b3b3b3b4d534e3b303b6e4d3b454c42554f442053454c4b4e495257204854554f4d20474e49544952574e4749533b3835414431,
0x3b3b3b3b3b4e3b3b3b3b3b4d534e3b303b6e4d3b5241462054554f20474e494b43495453204555474e4f5420474e49544952574e4749533b3935414431,
0x3b3b3b3b3b4e3b3b3b3b3b4d534e3b303b6e4d3b5350494c20474e494b43494c204555474e4f5420474e49544952574e4749533b4135414431,
0x3b3b3b3b3b4e3b3b3b3b3b4d534e3b303b6e4d3b5350494c204e45455754454220504954204555474e4f5420474e49544952574e4749533b4235414431,
0x3b3b3b3b3b4e3b3b3b3b3b4d534e3b303b6e4d3b4854554f4d20454449534e4920474e494843554f5420504954204555474e4f5420474e49544952574e4749533b4335414431,
0x3b3b3b3b3b4e3b3b3b3b3b4d534e3b303b6e4d3b444558414c4552204854554f4d20454449534e49204555474e4f5420474e49544952574e4749533b4435414431,
0x3b3b3b3b3b4e3b3b3b3b3b4d534e3b303b6e4d3b4b454548432054534e49414741205345564f4d204555474e4f5420474e49544952574e4749533b4535414431,
0x3b3b3b3b3b4e3b3b3b3b3b4d534e3b303b6e4d3b54554f20474e494b43495453204552544e4543204555474e4f5420474e49544952574e4749533b4635414431,
0x3b3b3b3b3b4e3b3b3b3b3b4d534e3b303b6e4d3b4854554f4d20454449534e49204552544e4543204555474e4f5420474e49544952574e4749533b3036414431,
0x3b3b3b3b3b4e3b3b3b3b3b4d534e3b303b6e4d3b485445455420474e49544952574e4749533b3136414431,
0x3b3b3b3b3b4e3b3b3b3b3b4d534e3b303b6e4d3b544e454d45564f4d20485445455420474e49544952574e4749533b3236414431,
0x3b3b3b3b3b4e3b3b3b3b3b4d534e3b303b6e4d3b4555474e4f54204e4f20485445455420474e49544952574e4749533b3336414431,
0x3b3b3b3b3b4e3b3b3b3b3b4d534e3b303b6e4d3b544e454d45564f4d204555474e4f54204e4f20485445455420474e49544952574e4749533b3436414431,
0x3b3b3b3b3b4e3b3b3b3b3b4d534e3b303b6e4d3b5350494c204e4f20485445455420474e49544952574e4749533b3536414431,
0x3b3b3b3b3b4e3b3b3b3b3b4d534e3b303b6e4d3b544e454d45564f4d205350494c204e4f20485445455420474e49544952574e4749533b3636414431,
0x3b3b3b3b3b4e3b3b3b3b3b4d534e3b303b6e4d3b5350494c204554494220485445455420474e49544952574e4749533b3736414431,
0x3b3b3b3b3b4e3b3b3b3b3b4d534e3b303b6e4d3b57414a20454e414c504c4c41572d544e454d45564f4d20474e49544952574e4749533b3836414431,
0x3b3b3b3b3b4e3b3b3b3b3b4d534e3b303b6e4d3b57414a20454e414c50524f4f4c462d544e454d45564f4d20474e49544952574e4749533b3936414431,
0x3b3b3b3b3b4e3b3b3b3b3b4d534e3b303b6e4d3b4b43454e20474e49544952574e4749533b4136414431,
0x3b3b3b3b3b4e3b3b3b3b3b4d534e3b303b6e4d3b5249414820474e49544952574e4749533b4236414431,
0x3b3b3b3b3b4e3b3b3b3b3b4d534e3b303b6e4d3b544e454d45544943584520474e49544952574e4749533b4336414431,
0x3b3b3b3b3b4e3b3b3b3b3b4c3b303b6f533b454e49505320504948205245444c554f485320474e49544952574e4749533b4436414431,
0x3b3b3b3b3b4e3b3b3b3b3b4c3b303b6f533b534e4f495449534f5020504948205245444c554f485320474e49544952574e4749533b4536414431,
0x3b3b3b3b3b4e3b3b3b3b3b4c3b303b6f533b45564f4d20504948205245444c554f485320454e414c504c4c415720474e49544952574e4749533b4636414431,
0x3b3b3b3b3b4e3b3b3b3b3b4c3b303b6f533b45564f4d20504948205245444c554f485320454e414c50524f4f4c4620474e49544952574e4749533b3037414431,
0x3b3b3b3b3b4e3b3b3b3b3b4c3b303b6f533b5453494157204d4f524620474e49544c4954205245444c554f485320474e49544952574e4749533b3137414431,
0x3b3b3b3b3b4e3b3b3b3b3b4c3b303b6f533b4843544552545320544847494152545320454e414c504c4c41572d4f53524f5420474e49544952574e4749533b3237414431,
0x3b3b3b3b3b4e3b3b3b3b3b4c3b303b6f533b444e45422044455652554320454e414c504c4c41572d4f53524f5420474e49544952574e4749533b3337414431,
0x3b3b3b3b3b4e3b3b3b3b3b4c3b303b6f533b474e49545349575420454e414c50524f4f4c462d4f53524f5420474e49544952574e4749533b3437414431,
0x3b3b3b3b3b4e3b3b3b3b3b4d534e3b303b6e4d3b53544e494f4a20504948204d4f524620474e49544c49542059444f4220524550505520474e49544952574e4749533b3537414431,
0x3b3b3b3b3b4e3b3b3b3b3b4c3b303b6f533b4e4f4954414e49424d4f4320424d494c20474e49544952574e4749533b3637414431,
0x3b3b3b3b3b4e3b3b3b3b3b4c3b303b6f533b312d4854474e454c20424d494c20474e49544952574e4749533b3737414431,
0x3b3b3b3b3b4e3b3b3b3b3b4c3b303b6f533b322d4854474e454c20424d494c20474e49544952574e4749533b3837414431,
0x3b3b3b3b3b4e3b3b3b3b3b4c3b303b6f533b332d4854474e454c20424d494c20474e49544952574e4749533b3937414431,
0x3b3b3b3b3b4e3b3b3b3b3b4c3b303b6f533b342d4854474e454c20424d494c20474e49544952574e4749533b4137414431,
0x3b3b3b3b3b4e3b3b3b3b3b4c3b303b6f533b352d4854474e454c20424d494c20474e49544952574e4749533b4237414431,
0x3b3b3b3b3b4e3b3b3b3b3b4c3b303b6f533b362d4854474e454c20424d494c20474e49544952574e4749533b4337414431,
0x3b3b3b3b3b4e3b3b3b3b3b4c3b303b6f533b372d4854474e454c20424d494c20474e49544952574e4749533b4437414431,
0x3b3b3b3b3b4e3b3b3b3b3b4c3b303b6f533b5245474e494620474e49544952574e4749533b4537414431,
0x3b3b3b3b3b4e3b3b3b3b3b4c3b303b6f533b454341505320454e414c504c4c41572d4e4f495441434f4c20474e49544952574e4749533b4637414431,
0x3b3b3b3b3b4e3b3b3b3b3b4c3b303b6f533b454341505320454e414c50524f4f4c462d4e4f495441434f4c20474e49544952574e4749533b3038414431,
0x3b3b3b3b3b4e3b3b3b3b3b4c3b303b6f533b544847494548204e4f495441434f4c20474e49544952574e4749533b3138414431,
0x3b3b3b3b3b4e3b3b3b3b3b4c3b303b6f533b4854444957204e4f495441434f4c20474e49544952574e4749533b3238414431,
0x3b3b3b3b3b4e3b3b3b3b3b4c3b303b6f533b4854504544204e4f495441434f4c20474e49544952574e4749533b3338414431,
0x3b3b3b3b3b4e3b3b3b3b3b4d534e3b303b6e4d3b4b43454e2044414548204e4f495441434f4c20474e49544952574e4749533b3438414431,
0x3b3b3b3b3b4e3b3b3b3b3b4c3b303b6f533b4f53524f54204e4f495441434f4c20474e49544952574e4749533b3538414431,
0x3b3b3b3b3b4e3b3b3b3b3b4c3b303b6f533b5354494749442053424d494c204e4f495441434f4c20474e49544952574e4749533b3638414431,
0x3b3b3b3b3b4e3b3b3b3b3b4c3b303b6f503b414d4d4f4320474e49544952574e4749533b3738414431,
0x3b3b3b3b3b4e3b3b3b3b3b4c3b303b6f503b504f5453204c4c554620474e49544952574e4749533b3838414431,
0x3b3b3b3b3b4e3b3b3b3b3b4c3b303b6f503b4e4f4c4f43494d455320474e49544952574e4749533b3938414431,
0x3b3b3b3b3b4e3b3b3b3b3b4c3b303b6f503b4e4f4c4f4320474e49544952574e4749533b4138414431,
0x3b3b3b3b3b4e3b3b3b3b3b4c3b303b6f503b5349534548544e4552415020474e49544952574e4749533b4238414431,
0x3b3b3b3b3b4e3b3b3b3b3b4d534e3b303b6e4d3b322d5245494649444f4d204c4c494620474e49544952574e4749533b4239414431,
0x3b3b3b3b3b4e3b3b3b3b3b4d534e3b303b6e4d3b332d5245494649444f4d204c4c494620474e49544952574e4749533b4339414431,
0x3b3b3b3b3b4e3b3b3b3b3b4d534e3b303b6e4d3b342d5245494649444f4d204c4c494620474e49544952574e4749533b4439414431,
0x3b3b3b3b3b4e3b3b3b3b3b4d534e3b303b6e4d3b352d5245494649444f4d204c4c494620474e49544952574e4749533b4539414431,
0x3b3b3b3b3b4e3b3b3b3b3b4d534e3b303b6e4d3b362d5245494649444f4d204c4c494620474e49544952574e4749533b4639414431,
0x3b3b3b3b3b4e3b3b3b3b3b4d534e3b303b6e4d3b322d5245494649444f4d204e4f495441544f5220474e49544952574e4749533b3141414431,
0x3b3b3b3b3b4e3b3b3b3b3b4d534e3b303b6e4d3b332d5245494649444f4d204e4f495441544f5220474e49544952574e4749533b3241414431,
0x3b3b3b3b3b4e3b3b3b3b3b4d534e3b303b6e4d3b342d5245494649444f4d204e4f495441544f5220474e49544952574e4749533b3341414431,
0x3b3b3b3b3b4e3b3b3b3b3b4d534e3b303b6e4d3b352d5245494649444f4d204e4f495441544f5220474e49544952574e4749533b3441414431,
0x3b3b3b3b3b4e3b3b3b3b3b4d534e3b303b6e4d3b362d5245494649444f4d204e4f495441544f5220474e49544952574e4749533b3541414431,
0x3b3b3b3b3b4e3b3b3b3b3b4d534e3b303b6e4d3b372d5245494649444f4d204e4f495441544f5220474e49544952574e4749533b3641414431,
0x3b3b3b3b3b4e3b3b3b3b3b4d534e3b303b6e4d3b382d5245494649444f4d204e4f495441544f5220474e49544952574e4749533b3741414431,
0x3b3b3b3b3b4e3b3b3b3b3b4d534e3b303b6e4d3b392d5245494649444f4d204e4f495441544f5220474e49544952574e4749533b3841414431,
0x3b3b3b3b3b4e3b3b3b3b3b4d534e3b303b6e4d3b30312d5245494649444f4d204e4f495441544f5220474e49544952574e4749533b3941414431,
0x3b3b3b3b3b4e3b3b3b3b3b4d534e3b303b6e4d3b31312d5245494649444f4d204e4f495441544f5220474e49544952574e4749533b4141414431,
0x3b3b3b3b3b4e3b3b3b3b3b4d534e3b303b6e4d3b32312d5245494649444f4d204e4f495441544f5220474e49544952574e4749533b4241414431,
0x3b3b3b3b3b4e3b3b3b3b3b4d534e3b303b6e4d3b33312d5245494649444f4d204e4f495441544f5220474e49544952574e4749533b4341414431,
0x3b3b3b3b3b4e3b3b3b3b3b4d534e3b303b6e4d3b34312d5245494649444f4d204e4f495441544f5220474e49544952574e4749533b4441414431,
0x3b3b3b3b3b4e3b3b3b3b3b4d534e3b303b6e4d3b35312d5245494649444f4d204e4f495441544f5220474e49544952574e4749533b4541414431,
0x3b3b3b3b3b4e3b3b3b3b3b4d534e3b303b6e4d3b36312d5245494649444f4d204e4f495441544f5220474e49544952574e4749533b4641414431,
0x3b3b3b3b3b4e3b3b3b3b3b4d534e3b3033323b6e4d3b555a412052455454454c20434954494c4f47414c4720474e494e49424d4f433b3030304531,
0x3b3b3b3b3b4e3b3b3b3b3b4d534e3b3033323b6e4d3b594b55422052455454454c20434954494c4f47414c4720474e494e49424d4f433b3130304531,
0x3b3b3b3b3b4e3b3b3b3b3b4d534e3b3033323b6e4d3b454445562052455454454c20434954494c4f47414c4720474e494e49424d4f433b3230304531,
0x3b3b3b3b3b4e3b3b3b3b3b4d534e3b3033323b6e4d3b494c4f47414c472052455454454c20434954494c4f47414c4720474e494e49424d4f433b3330304531,
0x3b3b3b3b3b4e3b3b3b3b3b4d534e3b3033323b6e4d3b4f52424f442052455454454c20434954494c4f47414c4720474e494e49424d4f433b3430304531,
0x3b3b3b3b3b4e3b3b3b3b3b4d534e3b3033323b6e4d3b55545345592052455454454c20434954494c4f47414c4720474e494e49424d4f433b3530304531,
0x3b3b3b3b3b4e3b3b3b3b3b4d534e3b3033323b6e4d3b4554455649485a2052455454454c20434954494c4f47414c4720474e494e49424d4f433b3630304531,
0x3b3b3b3b3b4e3b3b3b3b3b4d534e3b3033323b6e4d3b414a4c4d455a2052455454454c20434954494c4f47414c4720474e494e49424d4f433b3830304531,
0x3b3b3b3b3b4e3b3b3b3b3b4d534e3b3033323b6e4d3b45485a492052455454454c20434954494c4f47414c4720474e494e49424d4f433b3930304531,
0x3b3b3b3b3b4e3b3b3b3b3b4d534e3b3033323b6e4d3b45485a49204c414954494e492052455454454c20434954494c4f47414c4720474e494e49424d4f433b4130304531,
0x3b3b3b3b3b4e3b3b3b3b3b4d534e3b3033323b6e4d3b492052455454454c20434954494c4f47414c4720474e494e49424d4f433b4230304531,
0x3b3b3b3b3b4e3b3b3b3b3b4d534e3b3033323b6e4d3b495652454a442052455454454c20434954494c4f47414c4720474e494e49424d4f433b4330304531,
0x3b3b3b3b3b4e3b3b3b3b3b4d534e3b3033323b6e4d3b4f4b414b2052455454454c20434954494c4f47414c4720474e494e49424d4f433b4430304531,
0x3b3b3b3b3b4e3b3b3b3b3b4d534e3b3033323b6e4d3b454a4944554a4c2052455454454c20434954494c4f47414c4720474e494e49424d4f433b4530304531,
0x3b3b3b3b3b4e3b3b3b3b3b4d534e3b3033323b6e4d3b4554494c53594d2052455454454c20434954494c4f47414c4720474e494e49424d4f433b4630304531,
0x3b3b3b3b3b4e3b3b3b3b3b4d534e3b3033323b6e4d3b494853414e2052455454454c20434954494c4f47414c4720474e494e49424d4f433b3031304531,
0x3b3b3b3b3b4e3b3b3b3b3b4d534e3b3033323b6e4d3b554e4f2052455454454c20434954494c4f47414c4720474e494e49424d4f433b3131304531,
0x3b3b3b3b3b4e3b3b3b3b3b4d534e3b3033323b6e4d3b494a4f4b4f502052455454454c20434954494c4f47414c4720474e494e49424d4f433b3231304531,
0x3b3b3b3b3b4e3b3b3b3b3b4d534e3b3033323b6e4d3b49535449522052455454454c20434954494c4f47414c4720474e494e49424d4f433b3331304531,
0x3b3b3b3b3b4e3b3b3b3b3b4d534e3b3033323b6e4d3b4f564f4c532052455454454c20434954494c4f47414c4720474e494e49424d4f433b3431304531,
0x3b3b3b3b3b4e3b3b3b3b3b4d534e3b3033323b6e4d3b4f44495256542052455454454c20434954494c4f47414c4720474e494e49424d4f433b3531304531,
0x3b3b3b3b3b4e3b3b3b3b3b4d534e3b3033323b6e4d3b554b552052455454454c20434954494c4f47414c4720474e494e49424d4f433b3631304531,
0x3b3b3b3b3b4e3b3b3b3b3b4d534e3b3033323b6e4d3b55544952462052455454454c20434954494c4f47414c4720474e494e49424d4f433b3731304531,
0x3b3b3b3b3b4e3b3b3b3b3b4d534e3b3033323b6e4d3b555245482052455454454c20434954494c4f47414c4720474e494e49424d4f433b3831304531,
0x3b3b3b3b3b4e3b3b3b3b3b4d534e3b3033323b6e4d3b415448532052455454454c20434954494c4f47414c4720474e494e49424d4f433b4231304531,
0x3b3b3b3b3b4e3b3b3b3b3b4d534e3b3033323b6e4d3b4953542052455454454c20434954494c4f47414c4720474e494e49424d4f433b4331304531,
0x3b3b3b3b3b4e3b3b3b3b3b4d534e3b3033323b6e4d3b4956495248432052455454454c20434954494c4f47414c4720474e494e49424d4f433b4431304531,
0x3b3b3b3b3b4e3b3b3b3b3b4d534e3b3033323b6e4d3b4148532052455454454c20434954494c4f47414c4720474e494e49424d4f433b4531304531,
0x3b3b3b3b3b4e3b3b3b3b3b4d534e3b3033323b6e4d3b555245592052455454454c20434954494c4f47414c4720474e494e49424d4f433b4631304531,
0x3b3b3b3b3b4e3b3b3b3b3b4d534e3b3033323b6e4d3b495245592052455454454c20434954494c4f47414c4720474e494e49424d4f433b3032304531,
0x3b3b3b3b3b4e3b3b3b3b3b4d534e3b3033323b6e4d3b495441592052455454454c20434954494c4f47414c4720474e494e49424d4f433b3132304531,
0x3b3b3b3b3b4e3b3b3b3b3b4d534e3b3033323b6e4d3b55592052455454454c20434954494c4f47414c4720474e494e49424d4f433b3332304531,
0x3b3b3b3b3b4e3b3b3b3b3b4d534e3b3033323b6e4d3b535559204c4c414d532052455454454c20434954494c4f47414c4720474e494e49424d4f433b3432304531,
0x3b3b3b3b3b4e3b3b3b3b3b4d534e3b3033323b6e4d3b4f592052455454454c20434954494c4f47414c4720474e494e49424d4f433b3632304531,
0x3b3b3b3b3b4e3b3b3b3b3b4d534e3b3033323b6e4d3b535559204c4c414d532044455441544f492052455454454c20434954494c4f47414c4720474e494e49424d4f433b3732304531,
0x3b3b3b3b3b4e3b3b3b3b3b4d534e3b3033323b6e4d3b535559204749422052455454454c20434954494c4f47414c4720474e494e49424d4f433b3832304531,
0x3b3b3b3b3b4e3b3b3b3b3b4d534e3b3033323b6e4d3b535559204749422044455441544f492052455454454c20434954494c4f47414c4720474e494e49424d4f433b3932304531,
0x3b3b3b3b3b4e3b3b3b3b3b4d534e3b3033323b6e4d3b415449462052455454454c20434954494c4f47414c4720474e494e49424d4f433b4132304531,
0x3b3b3b3b3b4e3b3b3b3b3b523b303b6f4c3b494b203130304d20454c42414c4c59532049554b414b494b2045444e454d3b3030384531,
0x3b3b3b3b3b4e3b3b3b3b3b523b303b6f4c3b414b203230304d20454c42414c4c59532049554b414b494b2045444e454d3b3130384531,
0x3b3b3b3b3b4e3b3b3b3b3b523b303b6f4c3b554b203330304d20454c42414c4c59532049554b414b494b2045444e454d3b3230384531,
0x3b3b3b3b3b4e3b3b3b3b3b523b303b6f4c3b45454b203536304d20454c42414c4c59532049554b414b494b2045444e454d3b3330384531,
0x3b3b3b3b3b4e3b3b3b3b3b523b303b6f4c3b454b203539304d20454c42414c4c59532049554b414b494b2045444e454d3b3430384531,
0x3b3b3b3b3b4e3b3b3b3b3b523b303b6f4c3b4f4f4b203637304d20454c42414c4c59532049554b414b494b2045444e454d3b3530384531,
0x3b3b3b3b3b4e3b3b3b3b3b523b303b6f4c3b4f4b203834304d20454c42414c4c59532049554b414b494b2045444e454d3b3630384531,
0x3b3b3b3b3b4e3b3b3b3b3b523b303b6f4c3b41554b203937314d20454c42414c4c59532049554b414b494b2045444e454d3b3730384531,
0x3b3b3b3b3b4e3b3b3b3b3b523b303b6f4c3b4957203430304d20454c42414c4c59532049554b414b494b2045444e454d3b3830384531,
0x3b3b3b3b3b4e3b3b3b3b3b523b303b6f4c3b4157203530304d20454c42414c4c59532049554b414b494b2045444e454d3b3930384531,
0x3b3b3b3b3b4e3b3b3b3b3b523b303b6f4c3b5557203630304d20454c42414c4c59532049554b414b494b2045444e454d3b4130384531,
0x3b3b3b3b3b4e3b3b3b3b3b523b303b6f4c3b454557203632314d20454c42414c4c59532049554b414b494b2045444e454d3b4230384531,
0x3b3b3b3b3b4e3b3b3b3b3b523b303b6f4c3b4557203831314d20454c42414c4c59532049554b414b494b2045444e454d3b4330384531,
0x3b3b3b3b3b4e3b3b3b3b3b523b303b6f4c3b4f4f57203431314d20454c42414c4c59532049554b414b494b2045444e454d3b4430384531,
0x3b3b3b3b3b4e3b3b3b3b3b523b303b6f4c3b4f57203534304d20454c42414c4c59532049554b414b494b2045444e454d3b4530384531,
0x3b3b3b3b3b4e3b3b3b3b3b523b303b6f4c3b495557203439314d20454c42414c4c59532049554b414b494b2045444e454d3b4630384531,
0x3b3b3b3b3b4e3b3b3b3b3b523b303b6f4c3b494557203334314d20454c42414c4c59532049554b414b494b2045444e454d3b3031384531,
0x3b3b3b3b3b4e3b3b3b3b3b523b303b6f4c3b495657203136304d20454c42414c4c59532049554b414b494b2045444e454d3b3131384531,
0x3b3b3b3b3b4e3b3b3b3b3b523b303b6f4c3b415657203934304d20454c42414c4c59532049554b414b494b2045444e454d3b3231384531,
0x3b3b3b3b3b4e3b3b3b3b3b523b303b6f4c3b455657203933314d20454c42414c4c59532049554b414b494b2045444e454d3b3331384531,
0x3b3b3b3b3b4e3b3b3b3b3b523b303b6f4c3b4e494d203730304d20454c42414c4c59532049554b414b494b2045444e454d3b3431384531,
0x3b3b3b3b3b4e3b3b3b3b3b523b303b6f4c3b4e414d203830304d20454c42414c4c59532049554b414b494b2045444e454d3b3531384531,
0x3b3b3b3b3b4e3b3b3b3b3b523b303b6f4c3b4e554d203930304d20454c42414c4c59532049554b414b494b2045444e454d3b3631384531,
0x3b3b3b3b3b4e3b3b3b3b3b523b303b6f4c3b4e454d203935304d20454c42414c4c59532049554b414b494b2045444e454d3b3731384531,
0x3b3b3b3b3b4e3b3b3b3b3b523b303b6f4c3b4e4f4d203439304d20454c42414c4c59532049554b414b494b2045444e454d3b3831384531,
0x3b3b3b3b3b4e3b3b3b3b3b523b303b6f4c3b4e41554d203435314d20454c42414c4c59532049554b414b494b2045444e454d3b3931384531,
0x3b3b3b3b3b4e3b3b3b3b3b523b303b6f4c3b4e45554d203938314d20454c42414c4c59532049554b414b494b2045444e454d3b4131384531,
0x3b3b3b3b3b4e3b3b3b3b3b523b303b6f4c3b4942203031304d20454c42414c4c59532049554b414b494b2045444e454d3b4231384531,
0x3b3b3b3b3b4e3b3b3b3b3b523b303b6f4c3b4142203131304d20454c42414c4c59532049554b414b494b2045444e454d3b4331384531,
0x3b3b3b3b3b4e3b3b3b3b3b523b303b6f4c3b5542203231304d20454c42414c4c59532049554b414b494b2045444e454d3b4431384531,
0x3b3b3b3b3b4e3b3b3b3b3b523b303b6f4c3b454542203035314d20454c42414c4c59532049554b414b494b2045444e454d3b4531384531,
0x3b3b3b3b3b4e3b3b3b3b3b523b303b6f4c3b4542203739304d20454c42414c4c59532049554b414b494b2045444e454d3b4631384531,
0x3b3b3b3b3b4e3b3b3b3b3b523b303b6f4c3b4f4f42203330314d20454c42414c4c59532049554b414b494b2045444e454d3b3032384531,
0x3b3b3b3b3b4e3b3b3b3b3b523b303b6f4c3b4f42203833314d20454c42414c4c59532049554b414b494b2045444e454d3b3132384531,
0x3b3b3b3b3b4e3b3b3b3b3b523b303b6f4c3b49203331304d20454c42414c4c59532049554b414b494b2045444e454d3b3232384531,
0x3b3b3b3b3b4e3b3b3b3b3b523b303b6f4c3b41203431304d20454c42414c4c59532049554b414b494b2045444e454d3b3332384531,
0x3b3b3b3b3b4e3b3b3b3b3b523b303b6f4c3b55203531304d20454c42414c4c59532049554b414b494b2045444e454d3b3432384531,
0x3b3b3b3b3b4e3b3b3b3b3b523b303b6f4c3b4545203336314d20454c42414c4c59532049554b414b494b2045444e454d3b3532384531,
0x3b3b3b3b3b4e3b3b3b3b3b523b303b6f4c3b45203030314d20454c42414c4c59532049554b414b494b2045444e454d3b3632384531]

/-- src/u5e/props/UnicodeData.txt lines 27393-27648. -/
def rawUcd107 : List Nat := [
0x3b3b3b3b3b4e3b3b3b3b3b523b303b6f4c3b4f4f203536314d20454c42414c4c59532049554b414b494b2045444e454d3b3732384531,
0x3b3b3b3b3b4e3b3b3b3b3b523b303b6f4c3b4f203734314d20454c42414c4c59532049554b414b494b2045444e454d3b3832384531,
0x3b3b3b3b3b4e3b3b3b3b3b523b303b6f4c3b4945203733314d20454c42414c4c59532049554b414b494b2045444e454d3b3932384531,
0x3b3b3b3b3b4e3b3b3b3b3b523b303b6f4c3b4e49203133314d20454c42414c4c59532049554b414b494b2045444e454d3b4132384531,
0x3b3b3b3b3b4e3b3b3b3b3b523b303b6f4c3b4e49203533314d20454c42414c4c59532049554b414b494b2045444e454d3b4232384531,
0x3b3b3b3b3b4e3b3b3b3b3b523b303b6f4c3b4e41203539314d20454c42414c4c59532049554b414b494b2045444e454d3b4332384531,
0x3b3b3b3b3b4e3b3b3b3b3b523b303b6f4c3b4e45203837314d20454c42414c4c59532049554b414b494b2045444e454d3b4432384531,
0x3b3b3b3b3b4e3b3b3b3b3b523b303b6f4c3b4953203931304d20454c42414c4c59532049554b414b494b2045444e454d3b4532384531,
0x3b3b3b3b3b4e3b3b3b3b3b523b303b6f4c3b4153203032304d20454c42414c4c59532049554b414b494b2045444e454d3b4632384531,
0x3b3b3b3b3b4e3b3b3b3b3b523b303b6f4c3b5553203132304d20454c42414c4c59532049554b414b494b2045444e454d3b3033384531,
0x3b3b3b3b3b4e3b3b3b3b3b523b303b6f4c3b454553203236314d20454c42414c4c59532049554b414b494b2045444e454d3b3133384531,
0x3b3b3b3b3b4e3b3b3b3b3b523b303b6f4c3b4553203631314d20454c42414c4c59532049554b414b494b2045444e454d3b3233384531,
0x3b3b3b3b3b4e3b3b3b3b3b523b303b6f4c3b4f4f53203633314d20454c42414c4c59532049554b414b494b2045444e454d3b3333384531,
0x3b3b3b3b3b4e3b3b3b3b3b523b303b6f4c3b4f53203937304d20454c42414c4c59532049554b414b494b2045444e454d3b3433384531,
0x3b3b3b3b3b4e3b3b3b3b3b523b303b6f4c3b414953203639314d20454c42414c4c59532049554b414b494b2045444e454d3b3533384531,
0x3b3b3b3b3b4e3b3b3b3b3b523b303b6f4c3b494c203532304d20454c42414c4c59532049554b414b494b2045444e454d3b3633384531,
0x3b3b3b3b3b4e3b3b3b3b3b523b303b6f4c3b414c203632304d20454c42414c4c59532049554b414b494b2045444e454d3b3733384531,
0x3b3b3b3b3b4e3b3b3b3b3b523b303b6f4c3b554c203732304d20454c42414c4c59532049554b414b494b2045444e454d3b3833384531,
0x3b3b3b3b3b4e3b3b3b3b3b523b303b6f4c3b45454c203438304d20454c42414c4c59532049554b414b494b2045444e454d3b3933384531,
0x3b3b3b3b3b4e3b3b3b3b3b523b303b6f4c3b454c203337304d20454c42414c4c59532049554b414b494b2045444e454d3b4133384531,
0x3b3b3b3b3b4e3b3b3b3b3b523b303b6f4c3b4f4f4c203435304d20454c42414c4c59532049554b414b494b2045444e454d3b4233384531,
0x3b3b3b3b3b4e3b3b3b3b3b523b303b6f4c3b4f4c203335314d20454c42414c4c59532049554b414b494b2045444e454d3b4333384531,
0x3b3b3b3b3b4e3b3b3b3b3b523b303b6f4c3b454c20474e4f4c203031314d20454c42414c4c59532049554b414b494b2045444e454d3b4433384531,
0x3b3b3b3b3b4e3b3b3b3b3b523b303b6f4c3b4944203631304d20454c42414c4c59532049554b414b494b2045444e454d3b4533384531,
0x3b3b3b3b3b4e3b3b3b3b3b523b303b6f4c3b4144203731304d20454c42414c4c59532049554b414b494b2045444e454d3b4633384531,
0x3b3b3b3b3b4e3b3b3b3b3b523b303b6f4c3b5544203831304d20454c42414c4c59532049554b414b494b2045444e454d3b3034384531,
0x3b3b3b3b3b4e3b3b3b3b3b523b303b6f4c3b454544203938304d20454c42414c4c59532049554b414b494b2045444e454d3b3134384531,
0x3b3b3b3b3b4e3b3b3b3b3b523b303b6f4c3b4f4f44203038314d20454c42414c4c59532049554b414b494b2045444e454d3b3234384531,
0x3b3b3b3b3b4e3b3b3b3b3b523b303b6f4c3b4f44203138314d20454c42414c4c59532049554b414b494b2045444e454d3b3334384531,
0x3b3b3b3b3b4e3b3b3b3b3b523b303b6f4c3b4954203232304d20454c42414c4c59532049554b414b494b2045444e454d3b3434384531,
0x3b3b3b3b3b4e3b3b3b3b3b523b303b6f4c3b4154203332304d20454c42414c4c59532049554b414b494b2045444e454d3b3534384531,
0x3b3b3b3b3b4e3b3b3b3b3b523b303b6f4c3b5554203432304d20454c42414c4c59532049554b414b494b2045444e454d3b3634384531,
0x3b3b3b3b3b4e3b3b3b3b3b523b303b6f4c3b454554203139304d20454c42414c4c59532049554b414b494b2045444e454d3b3734384531,
0x3b3b3b3b3b4e3b3b3b3b3b523b303b6f4c3b4554203535304d20454c42414c4c59532049554b414b494b2045444e454d3b3834384531,
0x3b3b3b3b3b4e3b3b3b3b3b523b303b6f4c3b4f4f54203430314d20454c42414c4c59532049554b414b494b2045444e454d3b3934384531,
0x3b3b3b3b3b4e3b3b3b3b3b523b303b6f4c3b4f54203936304d20454c42414c4c59532049554b414b494b2045444e454d3b4134384531,
0x3b3b3b3b3b4e3b3b3b3b3b523b303b6f4c3b494a203832304d20454c42414c4c59532049554b414b494b2045444e454d3b4234384531,
0x3b3b3b3b3b4e3b3b3b3b3b523b303b6f4c3b414a203932304d20454c42414c4c59532049554b414b494b2045444e454d3b4334384531,
0x3b3b3b3b3b4e3b3b3b3b3b523b303b6f4c3b554a203033304d20454c42414c4c59532049554b414b494b2045444e454d3b4434384531,
0x3b3b3b3b3b4e3b3b3b3b3b523b303b6f4c3b45454a203735314d20454c42414c4c59532049554b414b494b2045444e454d3b4534384531,
0x3b3b3b3b3b4e3b3b3b3b3b523b303b6f4c3b454a203331314d20454c42414c4c59532049554b414b494b2045444e454d3b4634384531,
0x3b3b3b3b3b4e3b3b3b3b3b523b303b6f4c3b4f4f4a203036314d20454c42414c4c59532049554b414b494b2045444e454d3b3035384531,
0x3b3b3b3b3b4e3b3b3b3b3b523b303b6f4c3b4f4a203336304d20454c42414c4c59532049554b414b494b2045444e454d3b3135384531,
0x3b3b3b3b3b4e3b3b3b3b3b523b303b6f4c3b4f4a20474e4f4c203537314d20454c42414c4c59532049554b414b494b2045444e454d3b3235384531,
0x3b3b3b3b3b4e3b3b3b3b3b523b303b6f4c3b4959203133304d20454c42414c4c59532049554b414b494b2045444e454d3b3335384531,
0x3b3b3b3b3b4e3b3b3b3b3b523b303b6f4c3b4159203233304d20454c42414c4c59532049554b414b494b2045444e454d3b3435384531,
0x3b3b3b3b3b4e3b3b3b3b3b523b303b6f4c3b5559203333304d20454c42414c4c59532049554b414b494b2045444e454d3b3535384531,
0x3b3b3b3b3b4e3b3b3b3b3b523b303b6f4c3b454559203930314d20454c42414c4c59532049554b414b494b2045444e454d3b3635384531,
0x3b3b3b3b3b4e3b3b3b3b3b523b303b6f4c3b4559203038304d20454c42414c4c59532049554b414b494b2045444e454d3b3735384531,
0x3b3b3b3b3b4e3b3b3b3b3b523b303b6f4c3b4f4f59203134314d20454c42414c4c59532049554b414b494b2045444e454d3b3835384531,
0x3b3b3b3b3b4e3b3b3b3b3b523b303b6f4c3b4f59203132314d20454c42414c4c59532049554b414b494b2045444e454d3b3935384531,
0x3b3b3b3b3b4e3b3b3b3b3b523b303b6f4c3b4946203433304d20454c42414c4c59532049554b414b494b2045444e454d3b4135384531,
0x3b3b3b3b3b4e3b3b3b3b3b523b303b6f4c3b4146203533304d20454c42414c4c59532049554b414b494b2045444e454d3b4235384531,
0x3b3b3b3b3b4e3b3b3b3b3b523b303b6f4c3b5546203633304d20454c42414c4c59532049554b414b494b2045444e454d3b4335384531,
0x3b3b3b3b3b4e3b3b3b3b3b523b303b6f4c3b454546203837304d20454c42414c4c59532049554b414b494b2045444e454d3b4435384531,
0x3b3b3b3b3b4e3b3b3b3b3b523b303b6f4c3b4546203537304d20454c42414c4c59532049554b414b494b2045444e454d3b4535384531,
0x3b3b3b3b3b4e3b3b3b3b3b523b303b6f4c3b4f4f46203333314d20454c42414c4c59532049554b414b494b2045444e454d3b4635384531,
0x3b3b3b3b3b4e3b3b3b3b3b523b303b6f4c3b4f46203838304d20454c42414c4c59532049554b414b494b2045444e454d3b3036384531,
0x3b3b3b3b3b4e3b3b3b3b3b523b303b6f4c3b415546203739314d20454c42414c4c59532049554b414b494b2045444e454d3b3136384531,
0x3b3b3b3b3b4e3b3b3b3b3b523b303b6f4c3b4e4146203130314d20454c42414c4c59532049554b414b494b2045444e454d3b3236384531,
0x3b3b3b3b3b4e3b3b3b3b3b523b303b6f4c3b4e494e203733304d20454c42414c4c59532049554b414b494b2045444e454d3b3336384531,
0x3b3b3b3b3b4e3b3b3b3b3b523b303b6f4c3b4e414e203833304d20454c42414c4c59532049554b414b494b2045444e454d3b3436384531,
0x3b3b3b3b3b4e3b3b3b3b3b523b303b6f4c3b4e554e203933304d20454c42414c4c59532049554b414b494b2045444e454d3b3536384531,
0x3b3b3b3b3b4e3b3b3b3b3b523b303b6f4c3b4e454e203731314d20454c42414c4c59532049554b414b494b2045444e454d3b3636384531,
0x3b3b3b3b3b4e3b3b3b3b3b523b303b6f4c3b4e4f4e203936314d20454c42414c4c59532049554b414b494b2045444e454d3b3736384531,
0x3b3b3b3b3b4e3b3b3b3b3b523b303b6f4c3b4948203637314d20454c42414c4c59532049554b414b494b2045444e454d3b3836384531,
0x3b3b3b3b3b4e3b3b3b3b3b523b303b6f4c3b4148203134304d20454c42414c4c59532049554b414b494b2045444e454d3b3936384531,
0x3b3b3b3b3b4e3b3b3b3b3b523b303b6f4c3b5548203638314d20454c42414c4c59532049554b414b494b2045444e454d3b4136384531,
0x3b3b3b3b3b4e3b3b3b3b3b523b303b6f4c3b454548203034304d20454c42414c4c59532049554b414b494b2045444e454d3b4236384531,
0x3b3b3b3b3b4e3b3b3b3b3b523b303b6f4c3b4548203639304d20454c42414c4c59532049554b414b494b2045444e454d3b4336384531,
0x3b3b3b3b3b4e3b3b3b3b3b523b303b6f4c3b4f4f48203234304d20454c42414c4c59532049554b414b494b2045444e454d3b4436384531,
0x3b3b3b3b3b4e3b3b3b3b3b523b303b6f4c3b4f48203034314d20454c42414c4c59532049554b414b494b2045444e454d3b4536384531,
0x3b3b3b3b3b4e3b3b3b3b3b523b303b6f4c3b49454548203338304d20454c42414c4c59532049554b414b494b2045444e454d3b4636384531,
0x3b3b3b3b3b4e3b3b3b3b3b523b303b6f4c3b554f4f48203832314d20454c42414c4c59532049554b414b494b2045444e454d3b3037384531,
0x3b3b3b3b3b4e3b3b3b3b3b523b303b6f4c3b4e4948203335304d20454c42414c4c59532049554b414b494b2045444e454d3b3137384531,
0x3b3b3b3b3b4e3b3b3b3b3b523b303b6f4c3b4e4148203033314d20454c42414c4c59532049554b414b494b2045444e454d3b3237384531,
0x3b3b3b3b3b4e3b3b3b3b3b523b303b6f4c3b4e5548203738304d20454c42414c4c59532049554b414b494b2045444e454d3b3337384531,
0x3b3b3b3b3b4e3b3b3b3b3b523b303b6f4c3b4e4548203235304d20454c42414c4c59532049554b414b494b2045444e454d3b3437384531,
0x3b3b3b3b3b4e3b3b3b3b3b523b303b6f4c3b4e4f48203339314d20454c42414c4c59532049554b414b494b2045444e454d3b3537384531,
0x3b3b3b3b3b4e3b3b3b3b3b523b303b6f4c3b4e415548203634304d20454c42414c4c59532049554b414b494b2045444e454d3b3637384531,
0x3b3b3b3b3b4e3b3b3b3b3b523b303b6f4c3b4947474e203039304d20454c42414c4c59532049554b414b494b2045444e454d3b3737384531,
0x3b3b3b3b3b4e3b3b3b3b3b523b303b6f4c3b4147474e203334304d20454c42414c4c59532049554b414b494b2045444e454d3b3837384531,
0x3b3b3b3b3b4e3b3b3b3b3b523b303b6f4c3b5547474e203238304d20454c42414c4c59532049554b414b494b2045444e454d3b3937384531,
0x3b3b3b3b3b4e3b3b3b3b3b523b303b6f4c3b454547474e203531314d20454c42414c4c59532049554b414b494b2045444e454d3b4137384531,
0x3b3b3b3b3b4e3b3b3b3b3b523b303b6f4c3b4547474e203634314d20454c42414c4c59532049554b414b494b2045444e454d3b4237384531,
0x3b3b3b3b3b4e3b3b3b3b3b523b303b6f4c3b4f4f47474e203635314d20454c42414c4c59532049554b414b494b2045444e454d3b4337384531,
0x3b3b3b3b3b4e3b3b3b3b3b523b303b6f4c3b4f47474e203032314d20454c42414c4c59532049554b414b494b2045444e454d3b4437384531,
0x3b3b3b3b3b4e3b3b3b3b3b523b303b6f4c3b414147474e203935314d20454c42414c4c59532049554b414b494b2045444e454d3b4537384531,
0x3b3b3b3b3b4e3b3b3b3b3b523b303b6f4c3b415547474e203732314d20454c42414c4c59532049554b414b494b2045444e454d3b4637384531,
0x3b3b3b3b3b4e3b3b3b3b3b523b303b6f4c3b4547474e20474e4f4c203638304d20454c42414c4c59532049554b414b494b2045444e454d3b3038384531,
0x3b3b3b3b3b4e3b3b3b3b3b523b303b6f4c3b4f4f47474e20474e4f4c203630314d20454c42414c4c59532049554b414b494b2045444e454d3b3138384531,
0x3b3b3b3b3b4e3b3b3b3b3b523b303b6f4c3b4f47474e20474e4f4c203338314d20454c42414c4c59532049554b414b494b2045444e454d3b3238384531,
0x3b3b3b3b3b4e3b3b3b3b3b523b303b6f4c3b4947203535314d20454c42414c4c59532049554b414b494b2045444e454d3b3338384531,
0x3b3b3b3b3b4e3b3b3b3b3b523b303b6f4c3b4147203131314d20454c42414c4c59532049554b414b494b2045444e454d3b3438384531,
0x3b3b3b3b3b4e3b3b3b3b3b523b303b6f4c3b5547203836314d20454c42414c4c59532049554b414b494b2045444e454d3b3538384531,
0x3b3b3b3b3b4e3b3b3b3b3b523b303b6f4c3b454547203039314d20454c42414c4c59532049554b414b494b2045444e454d3b3638384531,
0x3b3b3b3b3b4e3b3b3b3b3b523b303b6f4c3b49455547203636314d20454c42414c4c59532049554b414b494b2045444e454d3b3738384531,
0x3b3b3b3b3b4e3b3b3b3b3b523b303b6f4c3b4e415547203736314d20454c42414c4c59532049554b414b494b2045444e454d3b3838384531,
0x3b3b3b3b3b4e3b3b3b3b3b523b303b6f4c3b4e45474e203438314d20454c42414c4c59532049554b414b494b2045444e454d3b3938384531,
0x3b3b3b3b3b4e3b3b3b3b3b523b303b6f4c3b4e4f474e203735304d20454c42414c4c59532049554b414b494b2045444e454d3b4138384531,
0x3b3b3b3b3b4e3b3b3b3b3b523b303b6f4c3b4e4155474e203737314d20454c42414c4c59532049554b414b494b2045444e454d3b4238384531,
0x3b3b3b3b3b4e3b3b3b3b3b523b303b6f4c3b4950203836304d20454c42414c4c59532049554b414b494b2045444e454d3b4338384531,
0x3b3b3b3b3b4e3b3b3b3b3b523b303b6f4c3b4150203939304d20454c42414c4c59532049554b414b494b2045444e454d3b4438384531,
0x3b3b3b3b3b4e3b3b3b3b3b523b303b6f4c3b5550203035304d20454c42414c4c59532049554b414b494b2045444e454d3b4538384531,
0x3b3b3b3b3b4e3b3b3b3b3b523b303b6f4c3b454550203138304d20454c42414c4c59532049554b414b494b2045444e454d3b4638384531,
0x3b3b3b3b3b4e3b3b3b3b3b523b303b6f4c3b4550203135304d20454c42414c4c59532049554b414b494b2045444e454d3b3039384531,
0x3b3b3b3b3b4e3b3b3b3b3b523b303b6f4c3b4f4f50203230314d20454c42414c4c59532049554b414b494b2045444e454d3b3139384531,
0x3b3b3b3b3b4e3b3b3b3b3b523b303b6f4c3b4f50203636304d20454c42414c4c59532049554b414b494b2045444e454d3b3239384531,
0x3b3b3b3b3b4e3b3b3b3b3b523b303b6f4c3b49424d203534314d20454c42414c4c59532049554b414b494b2045444e454d3b3339384531,
0x3b3b3b3b3b4e3b3b3b3b3b523b303b6f4c3b41424d203236304d20454c42414c4c59532049554b414b494b2045444e454d3b3439384531,
0x3b3b3b3b3b4e3b3b3b3b3b523b303b6f4c3b55424d203232314d20454c42414c4c59532049554b414b494b2045444e454d3b3539384531,
0x3b3b3b3b3b4e3b3b3b3b3b523b303b6f4c3b4545424d203734304d20454c42414c4c59532049554b414b494b2045444e454d3b3639384531,
0x3b3b3b3b3b4e3b3b3b3b3b523b303b6f4c3b4545424d203838314d20454c42414c4c59532049554b414b494b2045444e454d3b3739384531,
0x3b3b3b3b3b4e3b3b3b3b3b523b303b6f4c3b45424d203237304d20454c42414c4c59532049554b414b494b2045444e454d3b3839384531,
0x3b3b3b3b3b4e3b3b3b3b3b523b303b6f4c3b4f4f424d203237314d20454c42414c4c59532049554b414b494b2045444e454d3b3939384531,
0x3b3b3b3b3b4e3b3b3b3b3b523b303b6f4c3b4f424d203437314d20454c42414c4c59532049554b414b494b2045444e454d3b4139384531,
0x3b3b3b3b3b4e3b3b3b3b3b523b303b6f4c3b5555424d203738314d20454c42414c4c59532049554b414b494b2045444e454d3b4239384531,
0x3b3b3b3b3b4e3b3b3b3b3b523b303b6f4c3b45424d20474e4f4c203136314d20454c42414c4c59532049554b414b494b2045444e454d3b4339384531,
0x3b3b3b3b3b4e3b3b3b3b3b523b303b6f4c3b4f4f424d20474e4f4c203530314d20454c42414c4c59532049554b414b494b2045444e454d3b4439384531,
0x3b3b3b3b3b4e3b3b3b3b3b523b303b6f4c3b4f424d20474e4f4c203234314d20454c42414c4c59532049554b414b494b2045444e454d3b4539384531,
0x3b3b3b3b3b4e3b3b3b3b3b523b303b6f4c3b49504b203233314d20454c42414c4c59532049554b414b494b2045444e454d3b4639384531,
0x3b3b3b3b3b4e3b3b3b3b3b523b303b6f4c3b41504b203239304d20454c42414c4c59532049554b414b494b2045444e454d3b3041384531,
0x3b3b3b3b3b4e3b3b3b3b3b523b303b6f4c3b55504b203437304d20454c42414c4c59532049554b414b494b2045444e454d3b3141384531,
0x3b3b3b3b3b4e3b3b3b3b3b523b303b6f4c3b4545504b203434304d20454c42414c4c59532049554b414b494b2045444e454d3b3241384531,
0x3b3b3b3b3b4e3b3b3b3b3b523b303b6f4c3b45504b203830314d20454c42414c4c59532049554b414b494b2045444e454d3b3341384531,
0x3b3b3b3b3b4e3b3b3b3b3b523b303b6f4c3b4f4f504b203231314d20454c42414c4c59532049554b414b494b2045444e454d3b3441384531,
0x3b3b3b3b3b4e3b3b3b3b3b523b303b6f4c3b4f504b203835314d20454c42414c4c59532049554b414b494b2045444e454d3b3541384531,
0x3b3b3b3b3b4e3b3b3b3b3b523b303b6f4c3b494247203432314d20454c42414c4c59532049554b414b494b2045444e454d3b3641384531,
0x3b3b3b3b3b4e3b3b3b3b3b523b303b6f4c3b414247203635304d20454c42414c4c59532049554b414b494b2045444e454d3b3741384531,
0x3b3b3b3b3b4e3b3b3b3b3b523b303b6f4c3b554247203834314d20454c42414c4c59532049554b414b494b2045444e454d3b3841384531,
0x3b3b3b3b3b4e3b3b3b3b3b523b303b6f4c3b45454247203339304d20454c42414c4c59532049554b414b494b2045444e454d3b3941384531,
0x3b3b3b3b3b4e3b3b3b3b3b523b303b6f4c3b454247203730314d20454c42414c4c59532049554b414b494b2045444e454d3b4141384531,
0x3b3b3b3b3b4e3b3b3b3b3b523b303b6f4c3b4f4f4247203137304d20454c42414c4c59532049554b414b494b2045444e454d3b4241384531,
0x3b3b3b3b3b4e3b3b3b3b3b523b303b6f4c3b4f4247203037304d20454c42414c4c59532049554b414b494b2045444e454d3b4341384531,
0x3b3b3b3b3b4e3b3b3b3b3b523b303b6f4c3b4152203137314d20454c42414c4c59532049554b414b494b2045444e454d3b4441384531,
0x3b3b3b3b3b4e3b3b3b3b3b523b303b6f4c3b49444e203332314d20454c42414c4c59532049554b414b494b2045444e454d3b4541384531,
0x3b3b3b3b3b4e3b3b3b3b3b523b303b6f4c3b41444e203932314d20454c42414c4c59532049554b414b494b2045444e454d3b4641384531,
0x3b3b3b3b3b4e3b3b3b3b3b523b303b6f4c3b55444e203532314d20454c42414c4c59532049554b414b494b2045444e454d3b3042384531,
0x3b3b3b3b3b4e3b3b3b3b3b523b303b6f4c3b4545444e203139314d20454c42414c4c59532049554b414b494b2045444e454d3b3142384531,
0x3b3b3b3b3b4e3b3b3b3b3b523b303b6f4c3b45444e203931314d20454c42414c4c59532049554b414b494b2045444e454d3b3242384531,
0x3b3b3b3b3b4e3b3b3b3b3b523b303b6f4c3b4f4f444e203736304d20454c42414c4c59532049554b414b494b2045444e454d3b3342384531,
0x3b3b3b3b3b4e3b3b3b3b3b523b303b6f4c3b4f444e203436304d20454c42414c4c59532049554b414b494b2045444e454d3b3442384531,
0x3b3b3b3b3b4e3b3b3b3b3b523b303b6f4c3b414a4e203235314d20454c42414c4c59532049554b414b494b2045444e454d3b3542384531,
0x3b3b3b3b3b4e3b3b3b3b3b523b303b6f4c3b554a4e203239314d20454c42414c4c59532049554b414b494b2045444e454d3b3642384531,
0x3b3b3b3b3b4e3b3b3b3b3b523b303b6f4c3b45454a4e203934314d20454c42414c4c59532049554b414b494b2045444e454d3b3742384531,
0x3b3b3b3b3b4e3b3b3b3b3b523b303b6f4c3b4f4f4a4e203433314d20454c42414c4c59532049554b414b494b2045444e454d3b3842384531,
0x3b3b3b3b3b4e3b3b3b3b3b523b303b6f4c3b4956203238314d20454c42414c4c59532049554b414b494b2045444e454d3b3942384531,
0x3b3b3b3b3b4e3b3b3b3b3b523b303b6f4c3b4156203538314d20454c42414c4c59532049554b414b494b2045444e454d3b4142384531,
0x3b3b3b3b3b4e3b3b3b3b3b523b303b6f4c3b5556203135314d20454c42414c4c59532049554b414b494b2045444e454d3b4242384531,
0x3b3b3b3b3b4e3b3b3b3b3b523b303b6f4c3b454556203337314d20454c42414c4c59532049554b414b494b2045444e454d3b4342384531,
0x3b3b3b3b3b4e3b3b3b3b3b523b303b6f4c3b4556203538304d20454c42414c4c59532049554b414b494b2045444e454d3b4442384531,
0x3b3b3b3b3b4e3b3b3b3b3b523b303b6f4c3b4f4f56203434314d20454c42414c4c59532049554b414b494b2045444e454d3b4542384531,
0x3b3b3b3b3b4e3b3b3b3b3b523b303b6f4c3b4f56203737304d20454c42414c4c59532049554b414b494b2045444e454d3b4642384531,
0x3b3b3b3b3b4e3b3b3b3b3b523b303b6f4c3b4e49594e203436314d20454c42414c4c59532049554b414b494b2045444e454d3b3043384531,
0x3b3b3b3b3b4e3b3b3b3b3b523b303b6f4c3b4e41594e203835304d20454c42414c4c59532049554b414b494b2045444e454d3b3143384531,
0x3b3b3b3b3b4e3b3b3b3b3b523b303b6f4c3b4e55594e203037314d20454c42414c4c59532049554b414b494b2045444e454d3b3243384531,
0x3b3b3b3b3b4e3b3b3b3b3b523b303b6f4c3b4e45594e203839304d20454c42414c4c59532049554b414b494b2045444e454d3b3343384531,
0x3b3b3b3b3b4e3b3b3b3b3b523b303b6f4c3b4e4f594e203036304d20454c42414c4c59532049554b414b494b2045444e454d3b3443384531,
0x3b3b3b3b3b4e3b313b3b3b3b523b303b6f4e3b454e4f2054494749442049554b414b494b2045444e454d3b3743384531,
0x3b3b3b3b3b4e3b323b3b3b3b523b303b6f4e3b4f57542054494749442049554b414b494b2045444e454d3b3843384531,
0x3b3b3b3b3b4e3b333b3b3b3b523b303b6f4e3b45455248542054494749442049554b414b494b2045444e454d3b3943384531,
0x3b3b3b3b3b4e3b343b3b3b3b523b303b6f4e3b52554f462054494749442049554b414b494b2045444e454d3b4143384531,
0x3b3b3b3b3b4e3b353b3b3b3b523b303b6f4e3b455649462054494749442049554b414b494b2045444e454d3b4243384531,
0x3b3b3b3b3b4e3b363b3b3b3b523b303b6f4e3b5849532054494749442049554b414b494b2045444e454d3b4343384531,
0x3b3b3b3b3b4e3b373b3b3b3b523b303b6f4e3b4e455645532054494749442049554b414b494b2045444e454d3b4443384531,
0x3b3b3b3b3b4e3b383b3b3b3b523b303b6f4e3b54484749452054494749442049554b414b494b2045444e454d3b4543384531,
0x3b3b3b3b3b4e3b393b3b3b3b523b303b6f4e3b454e494e2054494749442049554b414b494b2045444e454d3b4643384531,
0x3b3b3b3b3b4e3b3b3b3b3b4d534e3b3032323b6e4d3b534e454554205245424d554e20474e494e49424d4f432049554b414b494b2045444e454d3b3044384531,
0x3b3b3b3b3b4e3b3b3b3b3b4d534e3b3032323b6e4d3b534e4554205245424d554e20474e494e49424d4f432049554b414b494b2045444e454d3b3144384531,
0x3b3b3b3b3b4e3b3b3b3b3b4d534e3b3032323b6e4d3b53444552444e5548205245424d554e20474e494e49424d4f432049554b414b494b2045444e454d3b3244384531,
0x3b3b3b3b3b4e3b3b3b3b3b4d534e3b3032323b6e4d3b53444e4153554f4854205245424d554e20474e494e49424d4f432049554b414b494b2045444e454d3b3344384531,
0x3b3b3b3b3b4e3b3b3b3b3b4d534e3b3032323b6e4d3b53444e4153554f4854204e4554205245424d554e20474e494e49424d4f432049554b414b494b2045444e454d3b3444384531,
0x3b3b3b3b3b4e3b3b3b3b3b4d534e3b3032323b6e4d3b53444e4153554f485420444552444e5548205245424d554e20474e494e49424d4f432049554b414b494b2045444e454d3b3544384531,
0x3b3b3b3b3b4e3b3b3b3b3b4d534e3b3032323b6e4d3b534e4f494c4c494d205245424d554e20474e494e49424d4f432049554b414b494b2045444e454d3b3644384531,
0x3b32323945313b3b3b3b4e3b3b3b3b3b523b303b754c3b46494c412052455454454c204c415449504143204d414c44413b3030394531,
0x3b33323945313b3b3b3b4e3b3b3b3b3b523b303b754c3b494c4141442052455454454c204c415449504143204d414c44413b3130394531,
0x3b34323945313b3b3b3b4e3b3b3b3b3b523b303b754c3b4d41414c2052455454454c204c415449504143204d414c44413b3230394531,
0x3b35323945313b3b3b3b4e3b3b3b3b3b523b303b754c3b4d49494d2052455454454c204c415449504143204d414c44413b3330394531,
0x3b36323945313b3b3b3b4e3b3b3b3b3b523b303b754c3b41422052455454454c204c415449504143204d414c44413b3430394531,
0x3b37323945313b3b3b3b4e3b3b3b3b3b523b303b754c3b4548594949594e4e49532052455454454c204c415449504143204d414c44413b3530394531,
0x3b38323945313b3b3b3b4e3b3b3b3b3b523b303b754c3b45502052455454454c204c415449504143204d414c44413b3630394531,
0x3b39323945313b3b3b3b4e3b3b3b3b3b523b303b754c3b4548422052455454454c204c415449504143204d414c44413b3730394531,
0x3b41323945313b3b3b3b4e3b3b3b3b3b523b303b754c3b41522052455454454c204c415449504143204d414c44413b3830394531,
0x3b42323945313b3b3b3b4e3b3b3b3b3b523b303b754c3b452052455454454c204c415449504143204d414c44413b3930394531,
0x3b43323945313b3b3b3b4e3b3b3b3b3b523b303b754c3b41462052455454454c204c415449504143204d414c44413b4130394531,
0x3b44323945313b3b3b3b4e3b3b3b3b3b523b303b754c3b492052455454454c204c415449504143204d414c44413b4230394531,
0x3b45323945313b3b3b3b4e3b3b3b3b3b523b303b754c3b4f2052455454454c204c415449504143204d414c44413b4330394531,
0x3b46323945313b3b3b3b4e3b3b3b3b3b523b303b754c3b4148442052455454454c204c415449504143204d414c44413b4430394531,
0x3b30333945313b3b3b3b4e3b3b3b3b3b523b303b754c3b4548592052455454454c204c415449504143204d414c44413b4530394531,
0x3b31333945313b3b3b3b4e3b3b3b3b3b523b303b754c3b5741572052455454454c204c415449504143204d414c44413b4630394531,
0x3b32333945313b3b3b3b4e3b3b3b3b3b523b303b754c3b4e554e2052455454454c204c415449504143204d414c44413b3031394531,
0x3b33333945313b3b3b3b4e3b3b3b3b3b523b303b754c3b46414b2052455454454c204c415449504143204d414c44413b3131394531,
0x3b34333945313b3b3b3b4e3b3b3b3b3b523b303b754c3b41592052455454454c204c415449504143204d414c44413b3231394531,
0x3b35333945313b3b3b3b4e3b3b3b3b3b523b303b754c3b552052455454454c204c415449504143204d414c44413b3331394531,
0x3b36333945313b3b3b3b4e3b3b3b3b3b523b303b754c3b4d49494a2052455454454c204c415449504143204d414c44413b3431394531,
0x3b37333945313b3b3b3b4e3b3b3b3b3b523b303b754c3b4948432052455454454c204c415449504143204d414c44413b3531394531,
0x3b38333945313b3b3b3b4e3b3b3b3b3b523b303b754c3b41482052455454454c204c415449504143204d414c44413b3631394531,
0x3b39333945313b3b3b3b4e3b3b3b3b3b523b303b754c3b464141512052455454454c204c415449504143204d414c44413b3731394531,
0x3b41333945313b3b3b3b4e3b3b3b3b3b523b303b754c3b41472052455454454c204c415449504143204d414c44413b3831394531,
0x3b42333945313b3b3b3b4e3b3b3b3b3b523b303b754c3b41594e2052455454454c204c415449504143204d414c44413b3931394531,
0x3b43333945313b3b3b3b4e3b3b3b3b3b523b303b754c3b55542052455454454c204c415449504143204d414c44413b4131394531,
0x3b44333945313b3b3b3b4e3b3b3b3b3b523b303b754c3b41484e2052455454454c204c415449504143204d414c44413b4231394531,
0x3b45333945313b3b3b3b4e3b3b3b3b3b523b303b754c3b41562052455454454c204c415449504143204d414c44413b4331394531,
0x3b46333945313b3b3b3b4e3b3b3b3b3b523b303b754c3b41484b2052455454454c204c415449504143204d414c44413b4431394531,
0x3b30343945313b3b3b3b4e3b3b3b3b3b523b303b754c3b4542472052455454454c204c415449504143204d414c44413b4531394531,
0x3b31343945313b3b3b3b4e3b3b3b3b3b523b303b754c3b4c415a2052455454454c204c415449504143204d414c44413b4631394531,
0x3b32343945313b3b3b3b4e3b3b3b3b3b523b303b754c3b4f504b2052455454454c204c415449504143204d414c44413b3032394531,
0x3b33343945313b3b3b3b4e3b3b3b3b3b523b303b754c3b4148532052455454454c204c415449504143204d414c44413b3132394531,
0x30303945313b3b30303945313b3b3b4e3b3b3b3b3b523b303b6c4c3b46494c412052455454454c204c4c414d53204d414c44413b3232394531,
0x31303945313b3b31303945313b3b3b4e3b3b3b3b3b523b303b6c4c3b494c4141442052455454454c204c4c414d53204d414c44413b3332394531,
0x32303945313b3b32303945313b3b3b4e3b3b3b3b3b523b303b6c4c3b4d41414c2052455454454c204c4c414d53204d414c44413b3432394531,
0x33303945313b3b33303945313b3b3b4e3b3b3b3b3b523b303b6c4c3b4d49494d2052455454454c204c4c414d53204d414c44413b3532394531,
0x34303945313b3b34303945313b3b3b4e3b3b3b3b3b523b303b6c4c3b41422052455454454c204c4c414d53204d414c44413b3632394531,
0x35303945313b3b35303945313b3b3b4e3b3b3b3b3b523b303b6c4c3b4548594949594e4e49532052455454454c204c4c414d53204d414c44413b3732394531,
0x36303945313b3b36303945313b3b3b4e3b3b3b3b3b523b303b6c4c3b45502052455454454c204c4c414d53204d414c44413b3832394531,
0x37303945313b3b37303945313b3b3b4e3b3b3b3b3b523b303b6c4c3b4548422052455454454c204c4c414d53204d414c44413b3932394531,
0x38303945313b3b38303945313b3b3b4e3b3b3b3b3b523b303b6c4c3b41522052455454454c204c4c414d53204d414c44413b4132394531,
0x39303945313b3b39303945313b3b3b4e3b3b3b3b3b523b303b6c4c3b452052455454454c204c4c414d53204d414c44413b4232394531,
0x41303945313b3b41303945313b3b3b4e3b3b3b3b3b523b303b6c4c3b41462052455454454c204c4c414d53204d414c44413b4332394531,
0x42303945313b3b42303945313b3b3b4e3b3b3b3b3b523b303b6c4c3b492052455454454c204c4c414d53204d414c44413b4432394531,
0x43303945313b3b43303945313b3b3b4e3b3b3b3b3b523b303b6c4c3b4f2052455454454c204c4c414d53204d414c44413b4532394531,
0x44303945313b3b44303945313b3b3b4e3b3b3b3b3b523b303b6c4c3b4148442052455454454c204c4c414d53204d414c44413b4632394531,
0x45303945313b3b45303945313b3b3b4e3b3b3b3b3b523b303b6c4c3b4548592052455454454c204c4c414d53204d414c44413b3033394531,
0x46303945313b3b46303945313b3b3b4e3b3b3b3b3b523b303b6c4c3b5741572052455454454c204c4c414d53204d414c44413b3133394531,
0x30313945313b3b30313945313b3b3b4e3b3b3b3b3b523b303b6c4c3b4e554e2052455454454c204c4c414d53204d414c44413b3233394531,
0x31313945313b3b31313945313b3b3b4e3b3b3b3b3b523b303b6c4c3b46414b2052455454454c204c4c414d53204d414c44413b3333394531,
0x32313945313b3b32313945313b3b3b4e3b3b3b3b3b523b303b6c4c3b41592052455454454c204c4c414d53204d414c44413b3433394531,
0x33313945313b3b33313945313b3b3b4e3b3b3b3b3b523b303b6c4c3b552052455454454c204c4c414d53204d414c44413b3533394531,
0x34313945313b3b34313945313b3b3b4e3b3b3b3b3b523b303b6c4c3b4d49494a2052455454454c204c4c414d53204d414c44413b3633394531,
0x35313945313b3b35313945313b3b3b4e3b3b3b3b3b523b303b6c4c3b4948432052455454454c204c4c414d53204d414c44413b3733394531,
0x36313945313b3b36313945313b3b3b4e3b3b3b3b3b523b303b6c4c3b41482052455454454c204c4c414d53204d414c44413b3833394531,
0x37313945313b3b37313945313b3b3b4e3b3b3b3b3b523b303b6c4c3b464141512052455454454c204c4c414d53204d414c44413b3933394531,
0x38313945313b3b38313945313b3b3b4e3b3b3b3b3b523b303b6c4c3b41472052455454454c204c4c414d53204d414c44413b4133394531,
0x39313945313b3b39313945313b3b3b4e3b3b3b3b3b523b303b6c4c3b41594e2052455454454c204c4c414d53204d414c44413b4233394531,
0x41313945313b3b41313945313b3b3b4e3b3b3b3b3b523b303b6c4c3b55542052455454454c204c4c414d53204d414c44413b4333394531,
0x42313945313b3b42313945313b3b3b4e3b3b3b3b3b523b303b6c4c3b41484e2052455454454c204c4c414d53204d414c44413b4433394531,
0x43313945313b3b43313945313b3b3b4e3b3b3b3b3b523b303b6c4c3b41562052455454454c204c4c414d53204d414c44413b4533394531,
0x44313945313b3b44313945313b3b3b4e3b3b3b3b3b523b303b6c4c3b41484b2052455454454c204c4c414d53204d414c44413b4633394531,
0x45313945313b3b45313945313b3b3b4e3b3b3b3b3b523b303b6c4c3b4542472052455454454c204c4c414d53204d414c44413b3034394531,
0x46313945313b3b46313945313b3b3b4e3b3b3b3b3b523b303b6c4c3b4c415a2052455454454c204c4c414d53204d414c44413b3134394531,
0x30323945313b3b30323945313b3b3b4e3b3b3b3b3b523b303b6c4c3b4f504b2052455454454c204c4c414d53204d414c44413b3234394531,
0x31323945313b3b31323945313b3b3b4e3b3b3b3b3b523b303b6c4c3b4148532052455454454c204c4c414d53204d414c44413b3334394531,
0x3b3b3b3b3b4e3b3b3b3b3b4d534e3b3033323b6e4d3b52454e454854474e454c2046494c41204d414c44413b3434394531,
0x3b3b3b3b3b4e3b3b3b3b3b4d534e3b3033323b6e4d3b52454e454854474e454c204c45574f56204d414c44413b3534394531,
0x3b3b3b3b3b4e3b3b3b3b3b4d534e3b3033323b6e4d3b4b52414d204e4f4954414e494d4547204d414c44413b3634394531,
0x3b3b3b3b3b4e3b3b3b3b3b4d534e3b3033323b6e4d3b415a4d4148204d414c44413b3734394531,
0x3b3b3b3b3b4e3b3b3b3b3b4d534e3b3033323b6e4d3b5245494649444f4d20544e414e4f534e4f43204d414c44413b3834394531,
0x3b3b3b3b3b4e3b3b3b3b3b4d534e3b3033323b6e4d3b5245494649444f4d20544e414e4f534e4f43204554414e494d4547204d414c44413b3934394531,
0x3b3b3b3b3b4e3b3b3b3b3b4d534e3b373b6e4d3b41544b554e204d414c44413b4134394531,
0x3b3b3b3b3b4e3b303b303b303b3b523b303b644e3b4f52455a205449474944204d414c44413b3035394531,
0x3b3b3b3b3b4e3b313b313b313b3b523b303b644e3b454e4f205449474944204d414c44413b3135394531,
0x3b3b3b3b3b4e3b323b323b323b3b523b303b644e3b4f5754205449474944204d414c44413b3235394531,
0x3b3b3b3b3b4e3b333b333b333b3b523b303b644e3b4545524854205449474944204d414c44413b3335394531,
0x3b3b3b3b3b4e3b343b343b343b3b523b303b644e3b52554f46205449474944204d414c44413b3435394531,
0x3b3b3b3b3b4e3b353b353b353b3b523b303b644e3b45564946205449474944204d414c44413b3535394531,
0x3b3b3b3b3b4e3b363b363b363b3b523b303b644e3b584953205449474944204d414c44413b3635394531]

/-- src/u5e/props/UnicodeData.txt lines 27649-27904. -/
def rawUcd108 : List Nat := [
0x3b3b3b3b3b4e3b373b373b373b3b523b303b644e3b4e45564553205449474944204d414c44413b3735394531,
0x3b3b3b3b3b4e3b383b383b383b3b523b303b644e3b5448474945205449474944204d414c44413b3835394531,
0x3b3b3b3b3b4e3b393b393b393b3b523b303b644e3b454e494e205449474944204d414c44413b3935394531,
0x3b3b3b3b3b4e3b3b3b3b3b523b303b6f503b4b52414d204e4f4954414d414c435845204c414954494e49204d414c44413b4535394531,
0x3b3b3b3b3b4e3b3b3b3b3b523b303b6f503b4b52414d204e4f495453455551204c414954494e49204d414c44413b4635394531,
0x3b3b3b3b3b4e3b3b3b3b37323630203e746e6f663c3b4c413b303b6f4c3b46454c41204c41434954414d454854414d204349424152413b3030454531,
0x3b3b3b3b3b4e3b3b3b3b38323630203e746e6f663c3b4c413b303b6f4c3b484542204c41434954414d454854414d204349424152413b3130454531,
0x3b3b3b3b3b4e3b3b3b3b43323630203e746e6f663c3b4c413b303b6f4c3b4d45454a204c41434954414d454854414d204349424152413b3230454531,
0x3b3b3b3b3b4e3b3b3b3b46323630203e746e6f663c3b4c413b303b6f4c3b4c4144204c41434954414d454854414d204349424152413b3330454531,
0x3b3b3b3b3b4e3b3b3b3b38343630203e746e6f663c3b4c413b303b6f4c3b574157204c41434954414d454854414d204349424152413b3530454531,
0x3b3b3b3b3b4e3b3b3b3b32333630203e746e6f663c3b4c413b303b6f4c3b4e49415a204c41434954414d454854414d204349424152413b3630454531,
0x3b3b3b3b3b4e3b3b3b3b44323630203e746e6f663c3b4c413b303b6f4c3b484148204c41434954414d454854414d204349424152413b3730454531,
0x3b3b3b3b3b4e3b3b3b3b37333630203e746e6f663c3b4c413b303b6f4c3b484154204c41434954414d454854414d204349424152413b3830454531,
0x3b3b3b3b3b4e3b3b3b3b41343630203e746e6f663c3b4c413b303b6f4c3b484559204c41434954414d454854414d204349424152413b3930454531,
0x3b3b3b3b3b4e3b3b3b3b33343630203e746e6f663c3b4c413b303b6f4c3b46414b204c41434954414d454854414d204349424152413b4130454531,
0x3b3b3b3b3b4e3b3b3b3b34343630203e746e6f663c3b4c413b303b6f4c3b4d414c204c41434954414d454854414d204349424152413b4230454531,
0x3b3b3b3b3b4e3b3b3b3b35343630203e746e6f663c3b4c413b303b6f4c3b4d45454d204c41434954414d454854414d204349424152413b4330454531,
0x3b3b3b3b3b4e3b3b3b3b36343630203e746e6f663c3b4c413b303b6f4c3b4e4f4f4e204c41434954414d454854414d204349424152413b4430454531,
0x3b3b3b3b3b4e3b3b3b3b33333630203e746e6f663c3b4c413b303b6f4c3b4e454553204c41434954414d454854414d204349424152413b4530454531,
0x3b3b3b3b3b4e3b3b3b3b39333630203e746e6f663c3b4c413b303b6f4c3b4e4941204c41434954414d454854414d204349424152413b4630454531,
0x3b3b3b3b3b4e3b3b3b3b31343630203e746e6f663c3b4c413b303b6f4c3b484546204c41434954414d454854414d204349424152413b3031454531,
0x3b3b3b3b3b4e3b3b3b3b35333630203e746e6f663c3b4c413b303b6f4c3b444153204c41434954414d454854414d204349424152413b3131454531,
0x3b3b3b3b3b4e3b3b3b3b32343630203e746e6f663c3b4c413b303b6f4c3b464151204c41434954414d454854414d204349424152413b3231454531,
0x3b3b3b3b3b4e3b3b3b3b31333630203e746e6f663c3b4c413b303b6f4c3b484552204c41434954414d454854414d204349424152413b3331454531,
0x3b3b3b3b3b4e3b3b3b3b34333630203e746e6f663c3b4c413b303b6f4c3b4e45454853204c41434954414d454854414d204349424152413b3431454531,
0x3b3b3b3b3b4e3b3b3b3b41323630203e746e6f663c3b4c413b303b6f4c3b484554204c41434954414d454854414d204349424152413b3531454531,
0x3b3b3b3b3b4e3b3b3b3b42323630203e746e6f663c3b4c413b303b6f4c3b48454854204c41434954414d454854414d204349424152413b3631454531,
0x3b3b3b3b3b4e3b3b3b3b45323630203e746e6f663c3b4c413b303b6f4c3b4841484b204c41434954414d454854414d204349424152413b3731454531,
0x3b3b3b3b3b4e3b3b3b3b30333630203e746e6f663c3b4c413b303b6f4c3b4c414854204c41434954414d454854414d204349424152413b3831454531,
0x3b3b3b3b3b4e3b3b3b3b36333630203e746e6f663c3b4c413b303b6f4c3b444144204c41434954414d454854414d204349424152413b3931454531,
0x3b3b3b3b3b4e3b3b3b3b38333630203e746e6f663c3b4c413b303b6f4c3b48415a204c41434954414d454854414d204349424152413b4131454531,
0x3b3b3b3b3b4e3b3b3b3b41333630203e746e6f663c3b4c413b303b6f4c3b4e49414847204c41434954414d454854414d204349424152413b4231454531,
0x3b3b3b3b3b4e3b3b3b3b45363630203e746e6f663c3b4c413b303b6f4c3b484542205353454c544f44204c41434954414d454854414d204349424152413b4331454531,
0x3b3b3b3b3b4e3b3b3b3b41423630203e746e6f663c3b4c413b303b6f4c3b4e4f4f4e205353454c544f44204c41434954414d454854414d204349424152413b4431454531,
0x3b3b3b3b3b4e3b3b3b3b31413630203e746e6f663c3b4c413b303b6f4c3b484546205353454c544f44204c41434954414d454854414d204349424152413b4531454531,
0x3b3b3b3b3b4e3b3b3b3b46363630203e746e6f663c3b4c413b303b6f4c3b464151205353454c544f44204c41434954414d454854414d204349424152413b4631454531,
0x3b3b3b3b3b4e3b3b3b3b38323630203e746e6f663c3b4c413b303b6f4c3b484542204c414954494e49204c41434954414d454854414d204349424152413b3132454531,
0x3b3b3b3b3b4e3b3b3b3b43323630203e746e6f663c3b4c413b303b6f4c3b4d45454a204c414954494e49204c41434954414d454854414d204349424152413b3232454531,
0x3b3b3b3b3b4e3b3b3b3b37343630203e746e6f663c3b4c413b303b6f4c3b484548204c414954494e49204c41434954414d454854414d204349424152413b3432454531,
0x3b3b3b3b3b4e3b3b3b3b44323630203e746e6f663c3b4c413b303b6f4c3b484148204c414954494e49204c41434954414d454854414d204349424152413b3732454531,
0x3b3b3b3b3b4e3b3b3b3b41343630203e746e6f663c3b4c413b303b6f4c3b484559204c414954494e49204c41434954414d454854414d204349424152413b3932454531,
0x3b3b3b3b3b4e3b3b3b3b33343630203e746e6f663c3b4c413b303b6f4c3b46414b204c414954494e49204c41434954414d454854414d204349424152413b4132454531,
0x3b3b3b3b3b4e3b3b3b3b34343630203e746e6f663c3b4c413b303b6f4c3b4d414c204c414954494e49204c41434954414d454854414d204349424152413b4232454531,
0x3b3b3b3b3b4e3b3b3b3b35343630203e746e6f663c3b4c413b303b6f4c3b4d45454d204c414954494e49204c41434954414d454854414d204349424152413b4332454531,
0x3b3b3b3b3b4e3b3b3b3b36343630203e746e6f663c3b4c413b303b6f4c3b4e4f4f4e204c414954494e49204c41434954414d454854414d204349424152413b4432454531,
0x3b3b3b3b3b4e3b3b3b3b33333630203e746e6f663c3b4c413b303b6f4c3b4e454553204c414954494e49204c41434954414d454854414d204349424152413b4532454531,
0x3b3b3b3b3b4e3b3b3b3b39333630203e746e6f663c3b4c413b303b6f4c3b4e4941204c414954494e49204c41434954414d454854414d204349424152413b4632454531,
0x3b3b3b3b3b4e3b3b3b3b31343630203e746e6f663c3b4c413b303b6f4c3b484546204c414954494e49204c41434954414d454854414d204349424152413b3033454531,
0x3b3b3b3b3b4e3b3b3b3b35333630203e746e6f663c3b4c413b303b6f4c3b444153204c414954494e49204c41434954414d454854414d204349424152413b3133454531,
0x3b3b3b3b3b4e3b3b3b3b32343630203e746e6f663c3b4c413b303b6f4c3b464151204c414954494e49204c41434954414d454854414d204349424152413b3233454531,
0x3b3b3b3b3b4e3b3b3b3b34333630203e746e6f663c3b4c413b303b6f4c3b4e45454853204c414954494e49204c41434954414d454854414d204349424152413b3433454531,
0x3b3b3b3b3b4e3b3b3b3b41323630203e746e6f663c3b4c413b303b6f4c3b484554204c414954494e49204c41434954414d454854414d204349424152413b3533454531,
0x3b3b3b3b3b4e3b3b3b3b42323630203e746e6f663c3b4c413b303b6f4c3b48454854204c414954494e49204c41434954414d454854414d204349424152413b3633454531,
0x3b3b3b3b3b4e3b3b3b3b45323630203e746e6f663c3b4c413b303b6f4c3b4841484b204c414954494e49204c41434954414d454854414d204349424152413b3733454531,
0x3b3b3b3b3b4e3b3b3b3b36333630203e746e6f663c3b4c413b303b6f4c3b444144204c414954494e49204c41434954414d454854414d204349424152413b3933454531,
0x3b3b3b3b3b4e3b3b3b3b41333630203e746e6f663c3b4c413b303b6f4c3b4e49414847204c414954494e49204c41434954414d454854414d204349424152413b4233454531,
0x3b3b3b3b3b4e3b3b3b3b43323630203e746e6f663c3b4c413b303b6f4c3b4d45454a2044454c494154204c41434954414d454854414d204349424152413b3234454531,
0x3b3b3b3b3b4e3b3b3b3b44323630203e746e6f663c3b4c413b303b6f4c3b4841482044454c494154204c41434954414d454854414d204349424152413b3734454531,
0x3b3b3b3b3b4e3b3b3b3b41343630203e746e6f663c3b4c413b303b6f4c3b4845592044454c494154204c41434954414d454854414d204349424152413b3934454531,
0x3b3b3b3b3b4e3b3b3b3b34343630203e746e6f663c3b4c413b303b6f4c3b4d414c2044454c494154204c41434954414d454854414d204349424152413b4234454531,
0x3b3b3b3b3b4e3b3b3b3b36343630203e746e6f663c3b4c413b303b6f4c3b4e4f4f4e2044454c494154204c41434954414d454854414d204349424152413b4434454531,
0x3b3b3b3b3b4e3b3b3b3b33333630203e746e6f663c3b4c413b303b6f4c3b4e4545532044454c494154204c41434954414d454854414d204349424152413b4534454531,
0x3b3b3b3b3b4e3b3b3b3b39333630203e746e6f663c3b4c413b303b6f4c3b4e49412044454c494154204c41434954414d454854414d204349424152413b4634454531,
0x3b3b3b3b3b4e3b3b3b3b35333630203e746e6f663c3b4c413b303b6f4c3b4441532044454c494154204c41434954414d454854414d204349424152413b3135454531,
0x3b3b3b3b3b4e3b3b3b3b32343630203e746e6f663c3b4c413b303b6f4c3b4641512044454c494154204c41434954414d454854414d204349424152413b3235454531,
0x3b3b3b3b3b4e3b3b3b3b34333630203e746e6f663c3b4c413b303b6f4c3b4e454548532044454c494154204c41434954414d454854414d204349424152413b3435454531,
0x3b3b3b3b3b4e3b3b3b3b45323630203e746e6f663c3b4c413b303b6f4c3b4841484b2044454c494154204c41434954414d454854414d204349424152413b3735454531,
0x3b3b3b3b3b4e3b3b3b3b36333630203e746e6f663c3b4c413b303b6f4c3b4441442044454c494154204c41434954414d454854414d204349424152413b3935454531,
0x3b3b3b3b3b4e3b3b3b3b41333630203e746e6f663c3b4c413b303b6f4c3b4e494148472044454c494154204c41434954414d454854414d204349424152413b4235454531,
0x3b3b3b3b3b4e3b3b3b3b41423630203e746e6f663c3b4c413b303b6f4c3b4e4f4f4e205353454c544f442044454c494154204c41434954414d454854414d204349424152413b4435454531,
0x3b3b3b3b3b4e3b3b3b3b46363630203e746e6f663c3b4c413b303b6f4c3b464151205353454c544f442044454c494154204c41434954414d454854414d204349424152413b4635454531,
0x3b3b3b3b3b4e3b3b3b3b38323630203e746e6f663c3b4c413b303b6f4c3b48454220444548435445525453204c41434954414d454854414d204349424152413b3136454531,
0x3b3b3b3b3b4e3b3b3b3b43323630203e746e6f663c3b4c413b303b6f4c3b4d45454a20444548435445525453204c41434954414d454854414d204349424152413b3236454531,
0x3b3b3b3b3b4e3b3b3b3b37343630203e746e6f663c3b4c413b303b6f4c3b48454820444548435445525453204c41434954414d454854414d204349424152413b3436454531,
0x3b3b3b3b3b4e3b3b3b3b44323630203e746e6f663c3b4c413b303b6f4c3b48414820444548435445525453204c41434954414d454854414d204349424152413b3736454531,
0x3b3b3b3b3b4e3b3b3b3b37333630203e746e6f663c3b4c413b303b6f4c3b48415420444548435445525453204c41434954414d454854414d204349424152413b3836454531,
0x3b3b3b3b3b4e3b3b3b3b41343630203e746e6f663c3b4c413b303b6f4c3b48455920444548435445525453204c41434954414d454854414d204349424152413b3936454531,
0x3b3b3b3b3b4e3b3b3b3b33343630203e746e6f663c3b4c413b303b6f4c3b46414b20444548435445525453204c41434954414d454854414d204349424152413b4136454531,
0x3b3b3b3b3b4e3b3b3b3b35343630203e746e6f663c3b4c413b303b6f4c3b4d45454d20444548435445525453204c41434954414d454854414d204349424152413b4336454531,
0x3b3b3b3b3b4e3b3b3b3b36343630203e746e6f663c3b4c413b303b6f4c3b4e4f4f4e20444548435445525453204c41434954414d454854414d204349424152413b4436454531,
0x3b3b3b3b3b4e3b3b3b3b33333630203e746e6f663c3b4c413b303b6f4c3b4e45455320444548435445525453204c41434954414d454854414d204349424152413b4536454531,
0x3b3b3b3b3b4e3b3b3b3b39333630203e746e6f663c3b4c413b303b6f4c3b4e494120444548435445525453204c41434954414d454854414d204349424152413b4636454531,
0x3b3b3b3b3b4e3b3b3b3b31343630203e746e6f663c3b4c413b303b6f4c3b48454620444548435445525453204c41434954414d454854414d204349424152413b3037454531,
0x3b3b3b3b3b4e3b3b3b3b35333630203e746e6f663c3b4c413b303b6f4c3b44415320444548435445525453204c41434954414d454854414d204349424152413b3137454531,
0x3b3b3b3b3b4e3b3b3b3b32343630203e746e6f663c3b4c413b303b6f4c3b46415120444548435445525453204c41434954414d454854414d204349424152413b3237454531,
0x3b3b3b3b3b4e3b3b3b3b34333630203e746e6f663c3b4c413b303b6f4c3b4e4545485320444548435445525453204c41434954414d454854414d204349424152413b3437454531,
0x3b3b3b3b3b4e3b3b3b3b41323630203e746e6f663c3b4c413b303b6f4c3b48455420444548435445525453204c41434954414d454854414d204349424152413b3537454531,
0x3b3b3b3b3b4e3b3b3b3b42323630203e746e6f663c3b4c413b303b6f4c3b4845485420444548435445525453204c41434954414d454854414d204349424152413b3637454531,
0x3b3b3b3b3b4e3b3b3b3b45323630203e746e6f663c3b4c413b303b6f4c3b4841484b20444548435445525453204c41434954414d454854414d204349424152413b3737454531,
0x3b3b3b3b3b4e3b3b3b3b36333630203e746e6f663c3b4c413b303b6f4c3b44414420444548435445525453204c41434954414d454854414d204349424152413b3937454531,
0x3b3b3b3b3b4e3b3b3b3b38333630203e746e6f663c3b4c413b303b6f4c3b48415a20444548435445525453204c41434954414d454854414d204349424152413b4137454531,
0x3b3b3b3b3b4e3b3b3b3b41333630203e746e6f663c3b4c413b303b6f4c3b4e4941484720444548435445525453204c41434954414d454854414d204349424152413b4237454531,
0x3b3b3b3b3b4e3b3b3b3b45363630203e746e6f663c3b4c413b303b6f4c3b484542205353454c544f4420444548435445525453204c41434954414d454854414d204349424152413b4337454531,
0x3b3b3b3b3b4e3b3b3b3b31413630203e746e6f663c3b4c413b303b6f4c3b484546205353454c544f4420444548435445525453204c41434954414d454854414d204349424152413b4537454531,
0x3b3b3b3b3b4e3b3b3b3b37323630203e746e6f663c3b4c413b303b6f4c3b46454c41204445504f4f4c204c41434954414d454854414d204349424152413b3038454531,
0x3b3b3b3b3b4e3b3b3b3b38323630203e746e6f663c3b4c413b303b6f4c3b484542204445504f4f4c204c41434954414d454854414d204349424152413b3138454531,
0x3b3b3b3b3b4e3b3b3b3b43323630203e746e6f663c3b4c413b303b6f4c3b4d45454a204445504f4f4c204c41434954414d454854414d204349424152413b3238454531,
0x3b3b3b3b3b4e3b3b3b3b46323630203e746e6f663c3b4c413b303b6f4c3b4c4144204445504f4f4c204c41434954414d454854414d204349424152413b3338454531,
0x3b3b3b3b3b4e3b3b3b3b37343630203e746e6f663c3b4c413b303b6f4c3b484548204445504f4f4c204c41434954414d454854414d204349424152413b3438454531,
0x3b3b3b3b3b4e3b3b3b3b38343630203e746e6f663c3b4c413b303b6f4c3b574157204445504f4f4c204c41434954414d454854414d204349424152413b3538454531,
0x3b3b3b3b3b4e3b3b3b3b32333630203e746e6f663c3b4c413b303b6f4c3b4e49415a204445504f4f4c204c41434954414d454854414d204349424152413b3638454531,
0x3b3b3b3b3b4e3b3b3b3b44323630203e746e6f663c3b4c413b303b6f4c3b484148204445504f4f4c204c41434954414d454854414d204349424152413b3738454531,
0x3b3b3b3b3b4e3b3b3b3b37333630203e746e6f663c3b4c413b303b6f4c3b484154204445504f4f4c204c41434954414d454854414d204349424152413b3838454531,
0x3b3b3b3b3b4e3b3b3b3b41343630203e746e6f663c3b4c413b303b6f4c3b484559204445504f4f4c204c41434954414d454854414d204349424152413b3938454531,
0x3b3b3b3b3b4e3b3b3b3b34343630203e746e6f663c3b4c413b303b6f4c3b4d414c204445504f4f4c204c41434954414d454854414d204349424152413b4238454531,
0x3b3b3b3b3b4e3b3b3b3b35343630203e746e6f663c3b4c413b303b6f4c3b4d45454d204445504f4f4c204c41434954414d454854414d204349424152413b4338454531,
0x3b3b3b3b3b4e3b3b3b3b36343630203e746e6f663c3b4c413b303b6f4c3b4e4f4f4e204445504f4f4c204c41434954414d454854414d204349424152413b4438454531,
0x3b3b3b3b3b4e3b3b3b3b33333630203e746e6f663c3b4c413b303b6f4c3b4e454553204445504f4f4c204c41434954414d454854414d204349424152413b4538454531,
0x3b3b3b3b3b4e3b3b3b3b39333630203e746e6f663c3b4c413b303b6f4c3b4e4941204445504f4f4c204c41434954414d454854414d204349424152413b4638454531,
0x3b3b3b3b3b4e3b3b3b3b31343630203e746e6f663c3b4c413b303b6f4c3b484546204445504f4f4c204c41434954414d454854414d204349424152413b3039454531,
0x3b3b3b3b3b4e3b3b3b3b35333630203e746e6f663c3b4c413b303b6f4c3b444153204445504f4f4c204c41434954414d454854414d204349424152413b3139454531,
0x3b3b3b3b3b4e3b3b3b3b32343630203e746e6f663c3b4c413b303b6f4c3b464151204445504f4f4c204c41434954414d454854414d204349424152413b3239454531,
0x3b3b3b3b3b4e3b3b3b3b31333630203e746e6f663c3b4c413b303b6f4c3b484552204445504f4f4c204c41434954414d454854414d204349424152413b3339454531,
0x3b3b3b3b3b4e3b3b3b3b34333630203e746e6f663c3b4c413b303b6f4c3b4e45454853204445504f4f4c204c41434954414d454854414d204349424152413b3439454531,
0x3b3b3b3b3b4e3b3b3b3b41323630203e746e6f663c3b4c413b303b6f4c3b484554204445504f4f4c204c41434954414d454854414d204349424152413b3539454531,
0x3b3b3b3b3b4e3b3b3b3b42323630203e746e6f663c3b4c413b303b6f4c3b48454854204445504f4f4c204c41434954414d454854414d204349424152413b3639454531,
0x3b3b3b3b3b4e3b3b3b3b45323630203e746e6f663c3b4c413b303b6f4c3b4841484b204445504f4f4c204c41434954414d454854414d204349424152413b3739454531,
0x3b3b3b3b3b4e3b3b3b3b30333630203e746e6f663c3b4c413b303b6f4c3b4c414854204445504f4f4c204c41434954414d454854414d204349424152413b3839454531,
0x3b3b3b3b3b4e3b3b3b3b36333630203e746e6f663c3b4c413b303b6f4c3b444144204445504f4f4c204c41434954414d454854414d204349424152413b3939454531,
0x3b3b3b3b3b4e3b3b3b3b38333630203e746e6f663c3b4c413b303b6f4c3b48415a204445504f4f4c204c41434954414d454854414d204349424152413b4139454531,
0x3b3b3b3b3b4e3b3b3b3b41333630203e746e6f663c3b4c413b303b6f4c3b4e49414847204445504f4f4c204c41434954414d454854414d204349424152413b4239454531,
0x3b3b3b3b3b4e3b3b3b3b38323630203e746e6f663c3b4c413b303b6f4c3b484542204b43555254532d454c42554f44204c41434954414d454854414d204349424152413b3141454531,
0x3b3b3b3b3b4e3b3b3b3b43323630203e746e6f663c3b4c413b303b6f4c3b4d45454a204b43555254532d454c42554f44204c41434954414d454854414d204349424152413b3241454531,
0x3b3b3b3b3b4e3b3b3b3b46323630203e746e6f663c3b4c413b303b6f4c3b4c4144204b43555254532d454c42554f44204c41434954414d454854414d204349424152413b3341454531,
0x3b3b3b3b3b4e3b3b3b3b38343630203e746e6f663c3b4c413b303b6f4c3b574157204b43555254532d454c42554f44204c41434954414d454854414d204349424152413b3541454531,
0x3b3b3b3b3b4e3b3b3b3b32333630203e746e6f663c3b4c413b303b6f4c3b4e49415a204b43555254532d454c42554f44204c41434954414d454854414d204349424152413b3641454531,
0x3b3b3b3b3b4e3b3b3b3b44323630203e746e6f663c3b4c413b303b6f4c3b484148204b43555254532d454c42554f44204c41434954414d454854414d204349424152413b3741454531,
0x3b3b3b3b3b4e3b3b3b3b37333630203e746e6f663c3b4c413b303b6f4c3b484154204b43555254532d454c42554f44204c41434954414d454854414d204349424152413b3841454531,
0x3b3b3b3b3b4e3b3b3b3b41343630203e746e6f663c3b4c413b303b6f4c3b484559204b43555254532d454c42554f44204c41434954414d454854414d204349424152413b3941454531,
0x3b3b3b3b3b4e3b3b3b3b34343630203e746e6f663c3b4c413b303b6f4c3b4d414c204b43555254532d454c42554f44204c41434954414d454854414d204349424152413b4241454531,
0x3b3b3b3b3b4e3b3b3b3b35343630203e746e6f663c3b4c413b303b6f4c3b4d45454d204b43555254532d454c42554f44204c41434954414d454854414d204349424152413b4341454531,
0x3b3b3b3b3b4e3b3b3b3b36343630203e746e6f663c3b4c413b303b6f4c3b4e4f4f4e204b43555254532d454c42554f44204c41434954414d454854414d204349424152413b4441454531,
0x3b3b3b3b3b4e3b3b3b3b33333630203e746e6f663c3b4c413b303b6f4c3b4e454553204b43555254532d454c42554f44204c41434954414d454854414d204349424152413b4541454531,
0x3b3b3b3b3b4e3b3b3b3b39333630203e746e6f663c3b4c413b303b6f4c3b4e4941204b43555254532d454c42554f44204c41434954414d454854414d204349424152413b4641454531,
0x3b3b3b3b3b4e3b3b3b3b31343630203e746e6f663c3b4c413b303b6f4c3b484546204b43555254532d454c42554f44204c41434954414d454854414d204349424152413b3042454531,
0x3b3b3b3b3b4e3b3b3b3b35333630203e746e6f663c3b4c413b303b6f4c3b444153204b43555254532d454c42554f44204c41434954414d454854414d204349424152413b3142454531,
0x3b3b3b3b3b4e3b3b3b3b32343630203e746e6f663c3b4c413b303b6f4c3b464151204b43555254532d454c42554f44204c41434954414d454854414d204349424152413b3242454531,
0x3b3b3b3b3b4e3b3b3b3b31333630203e746e6f663c3b4c413b303b6f4c3b484552204b43555254532d454c42554f44204c41434954414d454854414d204349424152413b3342454531,
0x3b3b3b3b3b4e3b3b3b3b34333630203e746e6f663c3b4c413b303b6f4c3b4e45454853204b43555254532d454c42554f44204c41434954414d454854414d204349424152413b3442454531,
0x3b3b3b3b3b4e3b3b3b3b41323630203e746e6f663c3b4c413b303b6f4c3b484554204b43555254532d454c42554f44204c41434954414d454854414d204349424152413b3542454531,
0x3b3b3b3b3b4e3b3b3b3b42323630203e746e6f663c3b4c413b303b6f4c3b48454854204b43555254532d454c42554f44204c41434954414d454854414d204349424152413b3642454531,
0x3b3b3b3b3b4e3b3b3b3b45323630203e746e6f663c3b4c413b303b6f4c3b4841484b204b43555254532d454c42554f44204c41434954414d454854414d204349424152413b3742454531,
0x3b3b3b3b3b4e3b3b3b3b30333630203e746e6f663c3b4c413b303b6f4c3b4c414854204b43555254532d454c42554f44204c41434954414d454854414d204349424152413b3842454531,
0x3b3b3b3b3b4e3b3b3b3b36333630203e746e6f663c3b4c413b303b6f4c3b444144204b43555254532d454c42554f44204c41434954414d454854414d204349424152413b3942454531,
0x3b3b3b3b3b4e3b3b3b3b38333630203e746e6f663c3b4c413b303b6f4c3b48415a204b43555254532d454c42554f44204c41434954414d454854414d204349424152413b4142454531,
0x3b3b3b3b3b4e3b3b3b3b41333630203e746e6f663c3b4c413b303b6f4c3b4e49414847204b43555254532d454c42554f44204c41434954414d454854414d204349424152413b4242454531,
0x3b3b3b3b3b4e3b3b3b3b3b4e4f3b303b6d533b4c4545575441542048544957204841482048544957204d45454d20524f54415245504f204c41434954414d454854414d204349424152413b3046454531,
0x3b3b3b3b3b4e3b3b3b3b3b4e4f3b303b6d533b4c414420485449572048414820524f54415245504f204c41434954414d454854414d204349424152413b3146454531,
0x3b3b3b3b3b4e3b3b3b3b3b4e4f3b303b6f533b444e4957205453414520454c495420474e4f4a48414d3b3030304631,
0x3b3b3b3b3b4e3b3b3b3b3b4e4f3b303b6f533b444e4957204854554f5320454c495420474e4f4a48414d3b3130304631,
0x3b3b3b3b3b4e3b3b3b3b3b4e4f3b303b6f533b444e4957205453455720454c495420474e4f4a48414d3b3230304631,
0x3b3b3b3b3b4e3b3b3b3b3b4e4f3b303b6f533b444e4957204854524f4e20454c495420474e4f4a48414d3b3330304631,
0x3b3b3b3b3b4e3b3b3b3b3b4e4f3b303b6f533b4e4f474152442044455220454c495420474e4f4a48414d3b3430304631,
0x3b3b3b3b3b4e3b3b3b3b3b4e4f3b303b6f533b4e4f47415244204e4545524720454c495420474e4f4a48414d3b3530304631,
0x3b3b3b3b3b4e3b3b3b3b3b4e4f3b303b6f533b4e4f4741524420455449485720454c495420474e4f4a48414d3b3630304631,
0x3b3b3b3b3b4e3b3b3b3b3b4e4f3b303b6f533b5352455443415241484320464f20454e4f20454c495420474e4f4a48414d3b3730304631,
0x3b3b3b3b3b4e3b3b3b3b3b4e4f3b303b6f533b5352455443415241484320464f204f575420454c495420474e4f4a48414d3b3830304631,
0x3b3b3b3b3b4e3b3b3b3b3b4e4f3b303b6f533b5352455443415241484320464f20454552485420454c495420474e4f4a48414d3b3930304631,
0x3b3b3b3b3b4e3b3b3b3b3b4e4f3b303b6f533b5352455443415241484320464f2052554f4620454c495420474e4f4a48414d3b4130304631,
0x3b3b3b3b3b4e3b3b3b3b3b4e4f3b303b6f533b5352455443415241484320464f204556494620454c495420474e4f4a48414d3b4230304631,
0x3b3b3b3b3b4e3b3b3b3b3b4e4f3b303b6f533b5352455443415241484320464f2058495320454c495420474e4f4a48414d3b4330304631,
0x3b3b3b3b3b4e3b3b3b3b3b4e4f3b303b6f533b5352455443415241484320464f204e4556455320454c495420474e4f4a48414d3b4430304631,
0x3b3b3b3b3b4e3b3b3b3b3b4e4f3b303b6f533b5352455443415241484320464f20544847494520454c495420474e4f4a48414d3b4530304631,
0x3b3b3b3b3b4e3b3b3b3b3b4e4f3b303b6f533b5352455443415241484320464f20454e494e20454c495420474e4f4a48414d3b4630304631,
0x3b3b3b3b3b4e3b3b3b3b3b4e4f3b303b6f533b534f4f424d414220464f20454e4f20454c495420474e4f4a48414d3b3031304631,
0x3b3b3b3b3b4e3b3b3b3b3b4e4f3b303b6f533b534f4f424d414220464f204f575420454c495420474e4f4a48414d3b3131304631,
0x3b3b3b3b3b4e3b3b3b3b3b4e4f3b303b6f533b534f4f424d414220464f20454552485420454c495420474e4f4a48414d3b3231304631,
0x3b3b3b3b3b4e3b3b3b3b3b4e4f3b303b6f533b534f4f424d414220464f2052554f4620454c495420474e4f4a48414d3b3331304631,
0x3b3b3b3b3b4e3b3b3b3b3b4e4f3b303b6f533b534f4f424d414220464f204556494620454c495420474e4f4a48414d3b3431304631,
0x3b3b3b3b3b4e3b3b3b3b3b4e4f3b303b6f533b534f4f424d414220464f2058495320454c495420474e4f4a48414d3b3531304631,
0x3b3b3b3b3b4e3b3b3b3b3b4e4f3b303b6f533b534f4f424d414220464f204e4556455320454c495420474e4f4a48414d3b3631304631,
0x3b3b3b3b3b4e3b3b3b3b3b4e4f3b303b6f533b534f4f424d414220464f20544847494520454c495420474e4f4a48414d3b3731304631,
0x3b3b3b3b3b4e3b3b3b3b3b4e4f3b303b6f533b534f4f424d414220464f20454e494e20454c495420474e4f4a48414d3b3831304631,
0x3b3b3b3b3b4e3b3b3b3b3b4e4f3b303b6f533b53454c4352494320464f20454e4f20454c495420474e4f4a48414d3b3931304631,
0x3b3b3b3b3b4e3b3b3b3b3b4e4f3b303b6f533b53454c4352494320464f204f575420454c495420474e4f4a48414d3b4131304631,
0x3b3b3b3b3b4e3b3b3b3b3b4e4f3b303b6f533b53454c4352494320464f20454552485420454c495420474e4f4a48414d3b4231304631,
0x3b3b3b3b3b4e3b3b3b3b3b4e4f3b303b6f533b53454c4352494320464f2052554f4620454c495420474e4f4a48414d3b4331304631,
0x3b3b3b3b3b4e3b3b3b3b3b4e4f3b303b6f533b53454c4352494320464f204556494620454c495420474e4f4a48414d3b4431304631,
0x3b3b3b3b3b4e3b3b3b3b3b4e4f3b303b6f533b53454c4352494320464f2058495320454c495420474e4f4a48414d3b4531304631,
0x3b3b3b3b3b4e3b3b3b3b3b4e4f3b303b6f533b53454c4352494320464f204e4556455320454c495420474e4f4a48414d3b4631304631,
0x3b3b3b3b3b4e3b3b3b3b3b4e4f3b303b6f533b53454c4352494320464f20544847494520454c495420474e4f4a48414d3b3032304631,
0x3b3b3b3b3b4e3b3b3b3b3b4e4f3b303b6f533b53454c4352494320464f20454e494e20454c495420474e4f4a48414d3b3132304631,
0x3b3b3b3b3b4e3b3b3b3b3b4e4f3b303b6f533b4d554c5020454c495420474e4f4a48414d3b3232304631,
0x3b3b3b3b3b4e3b3b3b3b3b4e4f3b303b6f533b44494843524f20454c495420474e4f4a48414d3b3332304631,
0x3b3b3b3b3b4e3b3b3b3b3b4e4f3b303b6f533b4f4f424d414220454c495420474e4f4a48414d3b3432304631,
0x3b3b3b3b3b4e3b3b3b3b3b4e4f3b303b6f533b4d554d4548544e41535952484320454c495420474e4f4a48414d3b3532304631,
0x3b3b3b3b3b4e3b3b3b3b3b4e4f3b303b6f533b474e4952505320454c495420474e4f4a48414d3b3632304631,
0x3b3b3b3b3b4e3b3b3b3b3b4e4f3b303b6f533b52454d4d555320454c495420474e4f4a48414d3b3732304631,
0x3b3b3b3b3b4e3b3b3b3b3b4e4f3b303b6f533b4e4d5554554120454c495420474e4f4a48414d3b3832304631,
0x3b3b3b3b3b4e3b3b3b3b3b4e4f3b303b6f533b5245544e495720454c495420474e4f4a48414d3b3932304631,
0x3b3b3b3b3b4e3b3b3b3b3b4e4f3b303b6f533b52454b4f4a20454c495420474e4f4a48414d3b4132304631,
0x3b3b3b3b3b4e3b3b3b3b3b4e4f3b303b6f533b4b43414220454c495420474e4f4a48414d3b4232304631,
0x3b3b3b3b3b4e3b3b3b3b3b4e4f3b303b6f533b4b434142204c41544e4f5a49524f4820454c4954204f4e494d4f443b3033304631,
0x3b3b3b3b3b4e3b3b3b3b3b4e4f3b303b6f533b30302d30302d4c41544e4f5a49524f4820454c4954204f4e494d4f443b3133304631,
0x3b3b3b3b3b4e3b3b3b3b3b4e4f3b303b6f533b31302d30302d4c41544e4f5a49524f4820454c4954204f4e494d4f443b3233304631,
0x3b3b3b3b3b4e3b3b3b3b3b4e4f3b303b6f533b32302d30302d4c41544e4f5a49524f4820454c4954204f4e494d4f443b3333304631,
0x3b3b3b3b3b4e3b3b3b3b3b4e4f3b303b6f533b33302d30302d4c41544e4f5a49524f4820454c4954204f4e494d4f443b3433304631,
0x3b3b3b3b3b4e3b3b3b3b3b4e4f3b303b6f533b34302d30302d4c41544e4f5a49524f4820454c4954204f4e494d4f443b3533304631,
0x3b3b3b3b3b4e3b3b3b3b3b4e4f3b303b6f533b35302d30302d4c41544e4f5a49524f4820454c4954204f4e494d4f443b3633304631,
0x3b3b3b3b3b4e3b3b3b3b3b4e4f3b303b6f533b36302d30302d4c41544e4f5a49524f4820454c4954204f4e494d4f443b3733304631,
0x3b3b3b3b3b4e3b3b3b3b3b4e4f3b303b6f533b30302d31302d4c41544e4f5a49524f4820454c4954204f4e494d4f443b3833304631,
0x3b3b3b3b3b4e3b3b3b3b3b4e4f3b303b6f533b31302d31302d4c41544e4f5a49524f4820454c4954204f4e494d4f443b3933304631,
0x3b3b3b3b3b4e3b3b3b3b3b4e4f3b303b6f533b32302d31302d4c41544e4f5a49524f4820454c4954204f4e494d4f443b4133304631,
0x3b3b3b3b3b4e3b3b3b3b3b4e4f3b303b6f533b33302d31302d4c41544e4f5a49524f4820454c4954204f4e494d4f443b4233304631,
0x3b3b3b3b3b4e3b3b3b3b3b4e4f3b303b6f533b34302d31302d4c41544e4f5a49524f4820454c4954204f4e494d4f443b4333304631,
0x3b3b3b3b3b4e3b3b3b3b3b4e4f3b303b6f533b35302d31302d4c41544e4f5a49524f4820454c4954204f4e494d4f443b4433304631,
0x3b3b3b3b3b4e3b3b3b3b3b4e4f3b303b6f533b36302d31302d4c41544e4f5a49524f4820454c4954204f4e494d4f443b4533304631,
0x3b3b3b3b3b4e3b3b3b3b3b4e4f3b303b6f533b30302d32302d4c41544e4f5a49524f4820454c4954204f4e494d4f443b4633304631,
0x3b3b3b3b3b4e3b3b3b3b3b4e4f3b303b6f533b31302d32302d4c41544e4f5a49524f4820454c4954204f4e494d4f443b3034304631,
0x3b3b3b3b3b4e3b3b3b3b3b4e4f3b303b6f533b32302d32302d4c41544e4f5a49524f4820454c4954204f4e494d4f443b3134304631,
0x3b3b3b3b3b4e3b3b3b3b3b4e4f3b303b6f533b33302d32302d4c41544e4f5a49524f4820454c4954204f4e494d4f443b3234304631,
0x3b3b3b3b3b4e3b3b3b3b3b4e4f3b303b6f533b34302d32302d4c41544e4f5a49524f4820454c4954204f4e494d4f443b3334304631,
0x3b3b3b3b3b4e3b3b3b3b3b4e4f3b303b6f533b35302d32302d4c41544e4f5a49524f4820454c4954204f4e494d4f443b3434304631,
0x3b3b3b3b3b4e3b3b3b3b3b4e4f3b303b6f533b36302d32302d4c41544e4f5a49524f4820454c4954204f4e494d4f443b3534304631,
0x3b3b3b3b3b4e3b3b3b3b3b4e4f3b303b6f533b30302d33302d4c41544e4f5a49524f4820454c4954204f4e494d4f443b3634304631,
0x3b3b3b3b3b4e3b3b3b3b3b4e4f3b303b6f533b31302d33302d4c41544e4f5a49524f4820454c4954204f4e494d4f443b3734304631,
0x3b3b3b3b3b4e3b3b3b3b3b4e4f3b303b6f533b32302d33302d4c41544e4f5a49524f4820454c4954204f4e494d4f443b3834304631,
0x3b3b3b3b3b4e3b3b3b3b3b4e4f3b303b6f533b33302d33302d4c41544e4f5a49524f4820454c4954204f4e494d4f443b3934304631,
0x3b3b3b3b3b4e3b3b3b3b3b4e4f3b303b6f533b34302d33302d4c41544e4f5a49524f4820454c4954204f4e494d4f443b4134304631,
0x3b3b3b3b3b4e3b3b3b3b3b4e4f3b303b6f533b35302d33302d4c41544e4f5a49524f4820454c4954204f4e494d4f443b4234304631,
0x3b3b3b3b3b4e3b3b3b3b3b4e4f3b303b6f533b36302d33302d4c41544e4f5a49524f4820454c4954204f4e494d4f443b4334304631,
0x3b3b3b3b3b4e3b3b3b3b3b4e4f3b303b6f533b30302d34302d4c41544e4f5a49524f4820454c4954204f4e494d4f443b4434304631,
0x3b3b3b3b3b4e3b3b3b3b3b4e4f3b303b6f533b31302d34302d4c41544e4f5a49524f4820454c4954204f4e494d4f443b4534304631,
0x3b3b3b3b3b4e3b3b3b3b3b4e4f3b303b6f533b32302d34302d4c41544e4f5a49524f4820454c4954204f4e494d4f443b4634304631,
0x3b3b3b3b3b4e3b3b3b3b3b4e4f3b303b6f533b33302d34302d4c41544e4f5a49524f4820454c4954204f4e494d4f443b3035304631,
0x3b3b3b3b3b4e3b3b3b3b3b4e4f3b303b6f533b34302d34302d4c41544e4f5a49524f4820454c4954204f4e494d4f443b3135304631,
0x3b3b3b3b3b4e3b3b3b3b3b4e4f3b303b6f533b35302d34302d4c41544e4f5a49524f4820454c4954204f4e494d4f443b3235304631,
0x3b3b3b3b3b4e3b3b3b3b3b4e4f3b303b6f533b36302d34302d4c41544e4f5a49524f4820454c4954204f4e494d4f443b3335304631,
0x3b3b3b3b3b4e3b3b3b3b3b4e4f3b303b6f533b30302d35302d4c41544e4f5a49524f4820454c4954204f4e494d4f443b3435304631,
0x3b3b3b3b3b4e3b3b3b3b3b4e4f3b303b6f533b31302d35302d4c41544e4f5a49524f4820454c4954204f4e494d4f443b3535304631,
0x3b3b3b3b3b4e3b3b3b3b3b4e4f3b303b6f533b32302d35302d4c41544e4f5a49524f4820454c4954204f4e494d4f443b3635304631,
0x3b3b3b3b3b4e3b3b3b3b3b4e4f3b303b6f533b33302d35302d4c41544e4f5a49524f4820454c4954204f4e494d4f443b3735304631,
0x3b3b3b3b3b4e3b3b3b3b3b4e4f3b303b6f533b34302d35302d4c41544e4f5a49524f4820454c4954204f4e494d4f443b3835304631,
0x3b3b3b3b3b4e3b3b3b3b3b4e4f3b303b6f533b35302d35302d4c41544e4f5a49524f4820454c4954204f4e494d4f443b3935304631,
0x3b3b3b3b3b4e3b3b3b3b3b4e4f3b303b6f533b36302d35302d4c41544e4f5a49524f4820454c4954204f4e494d4f443b4135304631,
0x3b3b3b3b3b4e3b3b3b3b3b4e4f3b303b6f533b30302d36302d4c41544e4f5a49524f4820454c4954204f4e494d4f443b4235304631,
0x3b3b3b3b3b4e3b3b3b3b3b4e4f3b303b6f533b31302d36302d4c41544e4f5a49524f4820454c4954204f4e494d4f443b4335304631,
0x3b3b3b3b3b4e3b3b3b3b3b4e4f3b303b6f533b32302d36302d4c41544e4f5a49524f4820454c4954204f4e494d4f443b4435304631,
0x3b3b3b3b3b4e3b3b3b3b3b4e4f3b303b6f533b33302d36302d4c41544e4f5a49524f4820454c4954204f4e494d4f443b4535304631,
0x3b3b3b3b3b4e3b3b3b3b3b4e4f3b303b6f533b34302d36302d4c41544e4f5a49524f4820454c4954204f4e494d4f443b4635304631,
0x3b3b3b3b3b4e3b3b3b3b3b4e4f3b303b6f533b35302d36302d4c41544e4f5a49524f4820454c4954204f4e494d4f443b3036304631,
0x3b3b3b3b3b4e3b3b3b3b3b4e4f3b303b6f533b36302d36302d4c41544e4f5a49524f4820454c4954204f4e494d4f443b3136304631,
0x3b3b3b3b3b4e3b3b3b3b3b4e4f3b303b6f533b4b434142204c4143495452455620454c4954204f4e494d4f443b3236304631,
0x3b3b3b3b3b4e3b3b3b3b3b4e4f3b303b6f533b30302d30302d4c4143495452455620454c4954204f4e494d4f443b3336304631,
0x3b3b3b3b3b4e3b3b3b3b3b4e4f3b303b6f533b31302d30302d4c4143495452455620454c4954204f4e494d4f443b3436304631,
0x3b3b3b3b3b4e3b3b3b3b3b4e4f3b303b6f533b32302d30302d4c4143495452455620454c4954204f4e494d4f443b3536304631,
0x3b3b3b3b3b4e3b3b3b3b3b4e4f3b303b6f533b33302d30302d4c4143495452455620454c4954204f4e494d4f443b3636304631,
0x3b3b3b3b3b4e3b3b3b3b3b4e4f3b303b6f533b34302d30302d4c4143495452455620454c4954204f4e494d4f443b3736304631,
0x3b3b3b3b3b4e3b3b3b3b3b4e4f3b303b6f533b35302d30302d4c4143495452455620454c4954204f4e494d4f443b3836304631,
0x3b3b3b3b3b4e3b3b3b3b3b4e4f3b303b6f533b36302d30302d4c4143495452455620454c4954204f4e494d4f443b3936304631,
0x3b3b3b3b3b4e3b3b3b3b3b4e4f3b303b6f533b30302d31302d4c4143495452455620454c4954204f4e494d4f443b4136304631,
0x3b3b3b3b3b4e3b3b3b3b3b4e4f3b303b6f533b31302d31302d4c4143495452455620454c4954204f4e494d4f443b4236304631,
0x3b3b3b3b3b4e3b3b3b3b3b4e4f3b303b6f533b32302d31302d4c4143495452455620454c4954204f4e494d4f443b4336304631,
0x3b3b3b3b3b4e3b3b3b3b3b4e4f3b303b6f533b33302d31302d4c4143495452455620454c4954204f4e494d4f443b4436304631,
0x3b3b3b3b3b4e3b3b3b3b3b4e4f3b303b6f533b34302d31302d4c4143495452455620454c4954204f4e494d4f443b4536304631,
0x3b3b3b3b3b4e3b3b3b3b3b4e4f3b303b6f533b35302d31302d4c4143495452455620454c4954204f4e494d4f443b4636304631]

/-- src/u5e/props/UnicodeData.txt lines 27905-28160. -/
def rawUcd109 : List Nat := [
0x3b3b3b3b3b4e3b3b3b3b3b4e4f3b303b6f533b36302d31302d4c4143495452455620454c4954204f4e494d4f443b3037304631,
0x3b3b3b3b3b4e3b3b3b3b3b4e4f3b303b6f533b30302d32302d4c4143495452455620454c4954204f4e494d4f443b3137304631,
0x3b3b3b3b3b4e3b3b3b3b3b4e4f3b303b6f533b31302d32302d4c4143495452455620454c4954204f4e494d4f443b3237304631,
0x3b3b3b3b3b4e3b3b3b3b3b4e4f3b303b6f533b32302d32302d4c4143495452455620454c4954204f4e494d4f443b3337304631,
0x3b3b3b3b3b4e3b3b3b3b3b4e4f3b303b6f533b33302d32302d4c4143495452455620454c4954204f4e494d4f443b3437304631,
0x3b3b3b3b3b4e3b3b3b3b3b4e4f3b303b6f533b34302d32302d4c4143495452455620454c4954204f4e494d4f443b3537304631,
0x3b3b3b3b3b4e3b3b3b3b3b4e4f3b303b6f533b35302d32302d4c4143495452455620454c4954204f4e494d4f443b3637304631,
0x3b3b3b3b3b4e3b3b3b3b3b4e4f3b303b6f533b36302d32302d4c4143495452455620454c4954204f4e494d4f443b3737304631,
0x3b3b3b3b3b4e3b3b3b3b3b4e4f3b303b6f533b30302d33302d4c4143495452455620454c4954204f4e494d4f443b3837304631,
0x3b3b3b3b3b4e3b3b3b3b3b4e4f3b303b6f533b31302d33302d4c4143495452455620454c4954204f4e494d4f443b3937304631,
0x3b3b3b3b3b4e3b3b3b3b3b4e4f3b303b6f533b32302d33302d4c4143495452455620454c4954204f4e494d4f443b4137304631,
0x3b3b3b3b3b4e3b3b3b3b3b4e4f3b303b6f533b33302d33302d4c4143495452455620454c4954204f4e494d4f443b4237304631,
0x3b3b3b3b3b4e3b3b3b3b3b4e4f3b303b6f533b34302d33302d4c4143495452455620454c4954204f4e494d4f443b4337304631,
0x3b3b3b3b3b4e3b3b3b3b3b4e4f3b303b6f533b35302d33302d4c4143495452455620454c4954204f4e494d4f443b4437304631,
0x3b3b3b3b3b4e3b3b3b3b3b4e4f3b303b6f533b36302d33302d4c4143495452455620454c4954204f4e494d4f443b4537304631,
0x3b3b3b3b3b4e3b3b3b3b3b4e4f3b303b6f533b30302d34302d4c4143495452455620454c4954204f4e494d4f443b4637304631,
0x3b3b3b3b3b4e3b3b3b3b3b4e4f3b303b6f533b31302d34302d4c4143495452455620454c4954204f4e494d4f443b3038304631,
0x3b3b3b3b3b4e3b3b3b3b3b4e4f3b303b6f533b32302d34302d4c4143495452455620454c4954204f4e494d4f443b3138304631,
0x3b3b3b3b3b4e3b3b3b3b3b4e4f3b303b6f533b33302d34302d4c4143495452455620454c4954204f4e494d4f443b3238304631,
0x3b3b3b3b3b4e3b3b3b3b3b4e4f3b303b6f533b34302d34302d4c4143495452455620454c4954204f4e494d4f443b3338304631,
0x3b3b3b3b3b4e3b3b3b3b3b4e4f3b303b6f533b35302d34302d4c4143495452455620454c4954204f4e494d4f443b3438304631,
0x3b3b3b3b3b4e3b3b3b3b3b4e4f3b303b6f533b36302d34302d4c4143495452455620454c4954204f4e494d4f443b3538304631,
0x3b3b3b3b3b4e3b3b3b3b3b4e4f3b303b6f533b30302d35302d4c4143495452455620454c4954204f4e494d4f443b3638304631,
0x3b3b3b3b3b4e3b3b3b3b3b4e4f3b303b6f533b31302d35302d4c4143495452455620454c4954204f4e494d4f443b3738304631,
0x3b3b3b3b3b4e3b3b3b3b3b4e4f3b303b6f533b32302d35302d4c4143495452455620454c4954204f4e494d4f443b3838304631,
0x3b3b3b3b3b4e3b3b3b3b3b4e4f3b303b6f533b33302d35302d4c4143495452455620454c4954204f4e494d4f443b3938304631,
0x3b3b3b3b3b4e3b3b3b3b3b4e4f3b303b6f533b34302d35302d4c4143495452455620454c4954204f4e494d4f443b4138304631,
0x3b3b3b3b3b4e3b3b3b3b3b4e4f3b303b6f533b35302d35302d4c4143495452455620454c4954204f4e494d4f443b4238304631,
0x3b3b3b3b3b4e3b3b3b3b3b4e4f3b303b6f533b36302d35302d4c4143495452455620454c4954204f4e494d4f443b4338304631,
0x3b3b3b3b3b4e3b3b3b3b3b4e4f3b303b6f533b30302d36302d4c4143495452455620454c4954204f4e494d4f443b4438304631,
0x3b3b3b3b3b4e3b3b3b3b3b4e4f3b303b6f533b31302d36302d4c4143495452455620454c4954204f4e494d4f443b4538304631,
0x3b3b3b3b3b4e3b3b3b3b3b4e4f3b303b6f533b32302d36302d4c4143495452455620454c4954204f4e494d4f443b4638304631,
0x3b3b3b3b3b4e3b3b3b3b3b4e4f3b303b6f533b33302d36302d4c4143495452455620454c4954204f4e494d4f443b3039304631,
0x3b3b3b3b3b4e3b3b3b3b3b4e4f3b303b6f533b34302d36302d4c4143495452455620454c4954204f4e494d4f443b3139304631,
0x3b3b3b3b3b4e3b3b3b3b3b4e4f3b303b6f533b35302d36302d4c4143495452455620454c4954204f4e494d4f443b3239304631,
0x3b3b3b3b3b4e3b3b3b3b3b4e4f3b303b6f533b36302d36302d4c4143495452455620454c4954204f4e494d4f443b3339304631,
0x3b3b3b3b3b4e3b3b3b3b3b4e4f3b303b6f533b4b434142204452414320474e4959414c503b3041304631,
0x3b3b3b3b3b4e3b3b3b3b3b4e4f3b303b6f533b53454441505320464f20454341204452414320474e4959414c503b3141304631,
0x3b3b3b3b3b4e3b3b3b3b3b4e4f3b303b6f533b53454441505320464f204f5754204452414320474e4959414c503b3241304631,
0x3b3b3b3b3b4e3b3b3b3b3b4e4f3b303b6f533b53454441505320464f204545524854204452414320474e4959414c503b3341304631,
0x3b3b3b3b3b4e3b3b3b3b3b4e4f3b303b6f533b53454441505320464f2052554f46204452414320474e4959414c503b3441304631,
0x3b3b3b3b3b4e3b3b3b3b3b4e4f3b303b6f533b53454441505320464f2045564946204452414320474e4959414c503b3541304631,
0x3b3b3b3b3b4e3b3b3b3b3b4e4f3b303b6f533b53454441505320464f20584953204452414320474e4959414c503b3641304631,
0x3b3b3b3b3b4e3b3b3b3b3b4e4f3b303b6f533b53454441505320464f204e45564553204452414320474e4959414c503b3741304631,
0x3b3b3b3b3b4e3b3b3b3b3b4e4f3b303b6f533b53454441505320464f205448474945204452414320474e4959414c503b3841304631,
0x3b3b3b3b3b4e3b3b3b3b3b4e4f3b303b6f533b53454441505320464f20454e494e204452414320474e4959414c503b3941304631,
0x3b3b3b3b3b4e3b3b3b3b3b4e4f3b303b6f533b53454441505320464f204e4554204452414320474e4959414c503b4141304631,
0x3b3b3b3b3b4e3b3b3b3b3b4e4f3b303b6f533b53454441505320464f204b43414a204452414320474e4959414c503b4241304631,
0x3b3b3b3b3b4e3b3b3b3b3b4e4f3b303b6f533b53454441505320464f20544847494e4b204452414320474e4959414c503b4341304631,
0x3b3b3b3b3b4e3b3b3b3b3b4e4f3b303b6f533b53454441505320464f204e45455551204452414320474e4959414c503b4441304631,
0x3b3b3b3b3b4e3b3b3b3b3b4e4f3b303b6f533b53454441505320464f20474e494b204452414320474e4959414c503b4541304631,
0x3b3b3b3b3b4e3b3b3b3b3b4e4f3b303b6f533b53545241454820464f20454341204452414320474e4959414c503b3142304631,
0x3b3b3b3b3b4e3b3b3b3b3b4e4f3b303b6f533b53545241454820464f204f5754204452414320474e4959414c503b3242304631,
0x3b3b3b3b3b4e3b3b3b3b3b4e4f3b303b6f533b53545241454820464f204545524854204452414320474e4959414c503b3342304631,
0x3b3b3b3b3b4e3b3b3b3b3b4e4f3b303b6f533b53545241454820464f2052554f46204452414320474e4959414c503b3442304631,
0x3b3b3b3b3b4e3b3b3b3b3b4e4f3b303b6f533b53545241454820464f2045564946204452414320474e4959414c503b3542304631,
0x3b3b3b3b3b4e3b3b3b3b3b4e4f3b303b6f533b53545241454820464f20584953204452414320474e4959414c503b3642304631,
0x3b3b3b3b3b4e3b3b3b3b3b4e4f3b303b6f533b53545241454820464f204e45564553204452414320474e4959414c503b3742304631,
0x3b3b3b3b3b4e3b3b3b3b3b4e4f3b303b6f533b53545241454820464f205448474945204452414320474e4959414c503b3842304631,
0x3b3b3b3b3b4e3b3b3b3b3b4e4f3b303b6f533b53545241454820464f20454e494e204452414320474e4959414c503b3942304631,
0x3b3b3b3b3b4e3b3b3b3b3b4e4f3b303b6f533b53545241454820464f204e4554204452414320474e4959414c503b4142304631,
0x3b3b3b3b3b4e3b3b3b3b3b4e4f3b303b6f533b53545241454820464f204b43414a204452414320474e4959414c503b4242304631,
0x3b3b3b3b3b4e3b3b3b3b3b4e4f3b303b6f533b53545241454820464f20544847494e4b204452414320474e4959414c503b4342304631,
0x3b3b3b3b3b4e3b3b3b3b3b4e4f3b303b6f533b53545241454820464f204e45455551204452414320474e4959414c503b4442304631,
0x3b3b3b3b3b4e3b3b3b3b3b4e4f3b303b6f533b53545241454820464f20474e494b204452414320474e4959414c503b4542304631,
0x3b3b3b3b3b4e3b3b3b3b3b4e4f3b303b6f533b52454b4f4a20444552204452414320474e4959414c503b4642304631,
0x3b3b3b3b3b4e3b3b3b3b3b4e4f3b303b6f533b53444e4f4d41494420464f20454341204452414320474e4959414c503b3143304631,
0x3b3b3b3b3b4e3b3b3b3b3b4e4f3b303b6f533b53444e4f4d41494420464f204f5754204452414320474e4959414c503b3243304631,
0x3b3b3b3b3b4e3b3b3b3b3b4e4f3b303b6f533b53444e4f4d41494420464f204545524854204452414320474e4959414c503b3343304631,
0x3b3b3b3b3b4e3b3b3b3b3b4e4f3b303b6f533b53444e4f4d41494420464f2052554f46204452414320474e4959414c503b3443304631,
0x3b3b3b3b3b4e3b3b3b3b3b4e4f3b303b6f533b53444e4f4d41494420464f2045564946204452414320474e4959414c503b3543304631,
0x3b3b3b3b3b4e3b3b3b3b3b4e4f3b303b6f533b53444e4f4d41494420464f20584953204452414320474e4959414c503b3643304631,
0x3b3b3b3b3b4e3b3b3b3b3b4e4f3b303b6f533b53444e4f4d41494420464f204e45564553204452414320474e4959414c503b3743304631,
0x3b3b3b3b3b4e3b3b3b3b3b4e4f3b303b6f533b53444e4f4d41494420464f205448474945204452414320474e4959414c503b3843304631,
0x3b3b3b3b3b4e3b3b3b3b3b4e4f3b303b6f533b53444e4f4d41494420464f20454e494e204452414320474e4959414c503b3943304631,
0x3b3b3b3b3b4e3b3b3b3b3b4e4f3b303b6f533b53444e4f4d41494420464f204e4554204452414320474e4959414c503b4143304631,
0x3b3b3b3b3b4e3b3b3b3b3b4e4f3b303b6f533b53444e4f4d41494420464f204b43414a204452414320474e4959414c503b4243304631,
0x3b3b3b3b3b4e3b3b3b3b3b4e4f3b303b6f533b53444e4f4d41494420464f20544847494e4b204452414320474e4959414c503b4343304631,
0x3b3b3b3b3b4e3b3b3b3b3b4e4f3b303b6f533b53444e4f4d41494420464f204e45455551204452414320474e4959414c503b4443304631,
0x3b3b3b3b3b4e3b3b3b3b3b4e4f3b303b6f533b53444e4f4d41494420464f20474e494b204452414320474e4959414c503b4543304631,
0x3b3b3b3b3b4e3b3b3b3b3b4e4f3b303b6f533b52454b4f4a204b43414c42204452414320474e4959414c503b4643304631,
0x3b3b3b3b3b4e3b3b3b3b3b4e4f3b303b6f533b5342554c4320464f20454341204452414320474e4959414c503b3144304631,
0x3b3b3b3b3b4e3b3b3b3b3b4e4f3b303b6f533b5342554c4320464f204f5754204452414320474e4959414c503b3244304631,
0x3b3b3b3b3b4e3b3b3b3b3b4e4f3b303b6f533b5342554c4320464f204545524854204452414320474e4959414c503b3344304631,
0x3b3b3b3b3b4e3b3b3b3b3b4e4f3b303b6f533b5342554c4320464f2052554f46204452414320474e4959414c503b3444304631,
0x3b3b3b3b3b4e3b3b3b3b3b4e4f3b303b6f533b5342554c4320464f2045564946204452414320474e4959414c503b3544304631,
0x3b3b3b3b3b4e3b3b3b3b3b4e4f3b303b6f533b5342554c4320464f20584953204452414320474e4959414c503b3644304631,
0x3b3b3b3b3b4e3b3b3b3b3b4e4f3b303b6f533b5342554c4320464f204e45564553204452414320474e4959414c503b3744304631,
0x3b3b3b3b3b4e3b3b3b3b3b4e4f3b303b6f533b5342554c4320464f205448474945204452414320474e4959414c503b3844304631,
0x3b3b3b3b3b4e3b3b3b3b3b4e4f3b303b6f533b5342554c4320464f20454e494e204452414320474e4959414c503b3944304631,
0x3b3b3b3b3b4e3b3b3b3b3b4e4f3b303b6f533b5342554c4320464f204e4554204452414320474e4959414c503b4144304631,
0x3b3b3b3b3b4e3b3b3b3b3b4e4f3b303b6f533b5342554c4320464f204b43414a204452414320474e4959414c503b4244304631,
0x3b3b3b3b3b4e3b3b3b3b3b4e4f3b303b6f533b5342554c4320464f20544847494e4b204452414320474e4959414c503b4344304631,
0x3b3b3b3b3b4e3b3b3b3b3b4e4f3b303b6f533b5342554c4320464f204e45455551204452414320474e4959414c503b4444304631,
0x3b3b3b3b3b4e3b3b3b3b3b4e4f3b303b6f533b5342554c4320464f20474e494b204452414320474e4959414c503b4544304631,
0x3b3b3b3b3b4e3b3b3b3b3b4e4f3b303b6f533b52454b4f4a204554494857204452414320474e4959414c503b4644304631,
0x3b3b3b3b3b4e3b3b3b3b3b4e4f3b303b6f533b4c4f4f46204452414320474e4959414c503b3045304631,
0x3b3b3b3b3b4e3b3b3b3b3b4e4f3b303b6f533b312d504d555254204452414320474e4959414c503b3145304631,
0x3b3b3b3b3b4e3b3b3b3b3b4e4f3b303b6f533b322d504d555254204452414320474e4959414c503b3245304631,
0x3b3b3b3b3b4e3b3b3b3b3b4e4f3b303b6f533b332d504d555254204452414320474e4959414c503b3345304631,
0x3b3b3b3b3b4e3b3b3b3b3b4e4f3b303b6f533b342d504d555254204452414320474e4959414c503b3445304631,
0x3b3b3b3b3b4e3b3b3b3b3b4e4f3b303b6f533b352d504d555254204452414320474e4959414c503b3545304631,
0x3b3b3b3b3b4e3b3b3b3b3b4e4f3b303b6f533b362d504d555254204452414320474e4959414c503b3645304631,
0x3b3b3b3b3b4e3b3b3b3b3b4e4f3b303b6f533b372d504d555254204452414320474e4959414c503b3745304631,
0x3b3b3b3b3b4e3b3b3b3b3b4e4f3b303b6f533b382d504d555254204452414320474e4959414c503b3845304631,
0x3b3b3b3b3b4e3b3b3b3b3b4e4f3b303b6f533b392d504d555254204452414320474e4959414c503b3945304631,
0x3b3b3b3b3b4e3b3b3b3b3b4e4f3b303b6f533b30312d504d555254204452414320474e4959414c503b4145304631,
0x3b3b3b3b3b4e3b3b3b3b3b4e4f3b303b6f533b31312d504d555254204452414320474e4959414c503b4245304631,
0x3b3b3b3b3b4e3b3b3b3b3b4e4f3b303b6f533b32312d504d555254204452414320474e4959414c503b4345304631,
0x3b3b3b3b3b4e3b3b3b3b3b4e4f3b303b6f533b33312d504d555254204452414320474e4959414c503b4445304631,
0x3b3b3b3b3b4e3b3b3b3b3b4e4f3b303b6f533b34312d504d555254204452414320474e4959414c503b4545304631,
0x3b3b3b3b3b4e3b3b3b3b3b4e4f3b303b6f533b35312d504d555254204452414320474e4959414c503b4645304631,
0x3b3b3b3b3b4e3b3b3b3b3b4e4f3b303b6f533b36312d504d555254204452414320474e4959414c503b3046304631,
0x3b3b3b3b3b4e3b3b3b3b3b4e4f3b303b6f533b37312d504d555254204452414320474e4959414c503b3146304631,
0x3b3b3b3b3b4e3b3b3b3b3b4e4f3b303b6f533b38312d504d555254204452414320474e4959414c503b3246304631,
0x3b3b3b3b3b4e3b3b3b3b3b4e4f3b303b6f533b39312d504d555254204452414320474e4959414c503b3346304631,
0x3b3b3b3b3b4e3b3b3b3b3b4e4f3b303b6f533b30322d504d555254204452414320474e4959414c503b3446304631,
0x3b3b3b3b3b4e3b3b3b3b3b4e4f3b303b6f533b31322d504d555254204452414320474e4959414c503b3546304631,
0x3b3b3b3b3b4e3b303b303b3b453230302030333030203e7461706d6f633c3b4e453b303b6f4e3b504f5453204c4c5546204f52455a2054494749443b3030314631,
0x3b3b3b3b3b4e3b303b303b3b433230302030333030203e7461706d6f633c3b4e453b303b6f4e3b414d4d4f43204f52455a2054494749443b3130314631,
0x3b3b3b3b3b4e3b313b313b3b433230302031333030203e7461706d6f633c3b4e453b303b6f4e3b414d4d4f4320454e4f2054494749443b3230314631,
0x3b3b3b3b3b4e3b323b323b3b433230302032333030203e7461706d6f633c3b4e453b303b6f4e3b414d4d4f43204f57542054494749443b3330314631,
0x3b3b3b3b3b4e3b333b333b3b433230302033333030203e7461706d6f633c3b4e453b303b6f4e3b414d4d4f432045455248542054494749443b3430314631,
0x3b3b3b3b3b4e3b343b343b3b433230302034333030203e7461706d6f633c3b4e453b303b6f4e3b414d4d4f432052554f462054494749443b3530314631,
0x3b3b3b3b3b4e3b353b353b3b433230302035333030203e7461706d6f633c3b4e453b303b6f4e3b414d4d4f4320455649462054494749443b3630314631,
0x3b3b3b3b3b4e3b363b363b3b433230302036333030203e7461706d6f633c3b4e453b303b6f4e3b414d4d4f43205849532054494749443b3730314631,
0x3b3b3b3b3b4e3b373b373b3b433230302037333030203e7461706d6f633c3b4e453b303b6f4e3b414d4d4f43204e455645532054494749443b3830314631,
0x3b3b3b3b3b4e3b383b383b3b433230302038333030203e7461706d6f633c3b4e453b303b6f4e3b414d4d4f432054484749452054494749443b3930314631,
0x3b3b3b3b3b4e3b393b393b3b433230302039333030203e7461706d6f633c3b4e453b303b6f4e3b414d4d4f4320454e494e2054494749443b4130314631,
0x3b3b3b3b3b4e3b303b3b3b3b4e4f3b303b6f4e3b4f52455a2054494749442046495245532d534e41532044454c4352494320544142474e49443b4230314631,
0x3b3b3b3b3b4e3b303b3b3b3b4e4f3b303b6f4e3b4f52455a2054494749442046495245532d534e41532044454c4352494320455649544147454e20544142474e49443b4330314631,
0x3b3b3b3b3b4e3b3b3b3b3932303020313430302038323030203e7461706d6f633c3b4c3b303b6f533b412052455454454c204c415449504143204e4954414c2044455a49534548544e455241503b3031314631,
0x3b3b3b3b3b4e3b3b3b3b3932303020323430302038323030203e7461706d6f633c3b4c3b303b6f533b422052455454454c204c415449504143204e4954414c2044455a49534548544e455241503b3131314631,
0x3b3b3b3b3b4e3b3b3b3b3932303020333430302038323030203e7461706d6f633c3b4c3b303b6f533b432052455454454c204c415449504143204e4954414c2044455a49534548544e455241503b3231314631,
0x3b3b3b3b3b4e3b3b3b3b3932303020343430302038323030203e7461706d6f633c3b4c3b303b6f533b442052455454454c204c415449504143204e4954414c2044455a49534548544e455241503b3331314631,
0x3b3b3b3b3b4e3b3b3b3b3932303020353430302038323030203e7461706d6f633c3b4c3b303b6f533b452052455454454c204c415449504143204e4954414c2044455a49534548544e455241503b3431314631,
0x3b3b3b3b3b4e3b3b3b3b3932303020363430302038323030203e7461706d6f633c3b4c3b303b6f533b462052455454454c204c415449504143204e4954414c2044455a49534548544e455241503b3531314631,
0x3b3b3b3b3b4e3b3b3b3b3932303020373430302038323030203e7461706d6f633c3b4c3b303b6f533b472052455454454c204c415449504143204e4954414c2044455a49534548544e455241503b3631314631,
0x3b3b3b3b3b4e3b3b3b3b3932303020383430302038323030203e7461706d6f633c3b4c3b303b6f533b482052455454454c204c415449504143204e4954414c2044455a49534548544e455241503b3731314631,
0x3b3b3b3b3b4e3b3b3b3b3932303020393430302038323030203e7461706d6f633c3b4c3b303b6f533b492052455454454c204c415449504143204e4954414c2044455a49534548544e455241503b3831314631,
0x3b3b3b3b3b4e3b3b3b3b3932303020413430302038323030203e7461706d6f633c3b4c3b303b6f533b4a2052455454454c204c415449504143204e4954414c2044455a49534548544e455241503b3931314631,
0x3b3b3b3b3b4e3b3b3b3b3932303020423430302038323030203e7461706d6f633c3b4c3b303b6f533b4b2052455454454c204c415449504143204e4954414c2044455a49534548544e455241503b4131314631,
0x3b3b3b3b3b4e3b3b3b3b3932303020433430302038323030203e7461706d6f633c3b4c3b303b6f533b4c2052455454454c204c415449504143204e4954414c2044455a49534548544e455241503b4231314631,
0x3b3b3b3b3b4e3b3b3b3b3932303020443430302038323030203e7461706d6f633c3b4c3b303b6f533b4d2052455454454c204c415449504143204e4954414c2044455a49534548544e455241503b4331314631,
0x3b3b3b3b3b4e3b3b3b3b3932303020453430302038323030203e7461706d6f633c3b4c3b303b6f533b4e2052455454454c204c415449504143204e4954414c2044455a49534548544e455241503b4431314631,
0x3b3b3b3b3b4e3b3b3b3b3932303020463430302038323030203e7461706d6f633c3b4c3b303b6f533b4f2052455454454c204c415449504143204e4954414c2044455a49534548544e455241503b4531314631,
0x3b3b3b3b3b4e3b3b3b3b3932303020303530302038323030203e7461706d6f633c3b4c3b303b6f533b502052455454454c204c415449504143204e4954414c2044455a49534548544e455241503b4631314631,
0x3b3b3b3b3b4e3b3b3b3b3932303020313530302038323030203e7461706d6f633c3b4c3b303b6f533b512052455454454c204c415449504143204e4954414c2044455a49534548544e455241503b3032314631,
0x3b3b3b3b3b4e3b3b3b3b3932303020323530302038323030203e7461706d6f633c3b4c3b303b6f533b522052455454454c204c415449504143204e4954414c2044455a49534548544e455241503b3132314631,
0x3b3b3b3b3b4e3b3b3b3b3932303020333530302038323030203e7461706d6f633c3b4c3b303b6f533b532052455454454c204c415449504143204e4954414c2044455a49534548544e455241503b3232314631,
0x3b3b3b3b3b4e3b3b3b3b3932303020343530302038323030203e7461706d6f633c3b4c3b303b6f533b542052455454454c204c415449504143204e4954414c2044455a49534548544e455241503b3332314631,
0x3b3b3b3b3b4e3b3b3b3b3932303020353530302038323030203e7461706d6f633c3b4c3b303b6f533b552052455454454c204c415449504143204e4954414c2044455a49534548544e455241503b3432314631,
0x3b3b3b3b3b4e3b3b3b3b3932303020363530302038323030203e7461706d6f633c3b4c3b303b6f533b562052455454454c204c415449504143204e4954414c2044455a49534548544e455241503b3532314631,
0x3b3b3b3b3b4e3b3b3b3b3932303020373530302038323030203e7461706d6f633c3b4c3b303b6f533b572052455454454c204c415449504143204e4954414c2044455a49534548544e455241503b3632314631,
0x3b3b3b3b3b4e3b3b3b3b3932303020383530302038323030203e7461706d6f633c3b4c3b303b6f533b582052455454454c204c415449504143204e4954414c2044455a49534548544e455241503b3732314631,
0x3b3b3b3b3b4e3b3b3b3b3932303020393530302038323030203e7461706d6f633c3b4c3b303b6f533b592052455454454c204c415449504143204e4954414c2044455a49534548544e455241503b3832314631,
0x3b3b3b3b3b4e3b3b3b3b3932303020413530302038323030203e7461706d6f633c3b4c3b303b6f533b5a2052455454454c204c415449504143204e4954414c2044455a49534548544e455241503b3932314631,
0x3b3b3b3b3b4e3b3b3b3b3531303320333530302034313033203e7461706d6f633c3b4c3b303b6f533b532052455454454c204c415449504143204e4954414c20444554454b43415242204c4c454853204553494f54524f543b4132314631,
0x3b3b3b3b3b4e3b3b3b3b33343030203e656c637269633c3b4c3b303b6f533b432052455454454c204c415449504143204e4954414c2043494c4154492044454c435249433b4232314631,
0x3b3b3b3b3b4e3b3b3b3b32353030203e656c637269633c3b4c3b303b6f533b522052455454454c204c415449504143204e4954414c2043494c4154492044454c435249433b4332314631,
0x3b3b3b3b3b4e3b3b3b3b343430302033343030203e656c637269633c3b4c3b303b6f533b44432044454c435249433b4432314631,
0x3b3b3b3b3b4e3b3b3b3b413530302037353030203e656c637269633c3b4c3b303b6f533b5a572044454c435249433b4532314631,
0x3b3b3b3b3b4e3b3b3b3b31343030203e6572617571733c3b4c3b303b6f533b412052455454454c204c415449504143204e4954414c20444552415551533b3033314631,
0x3b3b3b3b3b4e3b3b3b3b32343030203e6572617571733c3b4c3b303b6f533b422052455454454c204c415449504143204e4954414c20444552415551533b3133314631,
0x3b3b3b3b3b4e3b3b3b3b33343030203e6572617571733c3b4c3b303b6f533b432052455454454c204c415449504143204e4954414c20444552415551533b3233314631,
0x3b3b3b3b3b4e3b3b3b3b34343030203e6572617571733c3b4c3b303b6f533b442052455454454c204c415449504143204e4954414c20444552415551533b3333314631,
0x3b3b3b3b3b4e3b3b3b3b35343030203e6572617571733c3b4c3b303b6f533b452052455454454c204c415449504143204e4954414c20444552415551533b3433314631,
0x3b3b3b3b3b4e3b3b3b3b36343030203e6572617571733c3b4c3b303b6f533b462052455454454c204c415449504143204e4954414c20444552415551533b3533314631,
0x3b3b3b3b3b4e3b3b3b3b37343030203e6572617571733c3b4c3b303b6f533b472052455454454c204c415449504143204e4954414c20444552415551533b3633314631,
0x3b3b3b3b3b4e3b3b3b3b38343030203e6572617571733c3b4c3b303b6f533b482052455454454c204c415449504143204e4954414c20444552415551533b3733314631,
0x3b3b3b3b3b4e3b3b3b3b39343030203e6572617571733c3b4c3b303b6f533b492052455454454c204c415449504143204e4954414c20444552415551533b3833314631,
0x3b3b3b3b3b4e3b3b3b3b41343030203e6572617571733c3b4c3b303b6f533b4a2052455454454c204c415449504143204e4954414c20444552415551533b3933314631,
0x3b3b3b3b3b4e3b3b3b3b42343030203e6572617571733c3b4c3b303b6f533b4b2052455454454c204c415449504143204e4954414c20444552415551533b4133314631,
0x3b3b3b3b3b4e3b3b3b3b43343030203e6572617571733c3b4c3b303b6f533b4c2052455454454c204c415449504143204e4954414c20444552415551533b4233314631,
0x3b3b3b3b3b4e3b3b3b3b44343030203e6572617571733c3b4c3b303b6f533b4d2052455454454c204c415449504143204e4954414c20444552415551533b4333314631,
0x3b3b3b3b3b4e3b3b3b3b45343030203e6572617571733c3b4c3b303b6f533b4e2052455454454c204c415449504143204e4954414c20444552415551533b4433314631,
0x3b3b3b3b3b4e3b3b3b3b46343030203e6572617571733c3b4c3b303b6f533b4f2052455454454c204c415449504143204e4954414c20444552415551533b4533314631,
0x3b3b3b3b3b4e3b3b3b3b30353030203e6572617571733c3b4c3b303b6f533b502052455454454c204c415449504143204e4954414c20444552415551533b4633314631,
0x3b3b3b3b3b4e3b3b3b3b31353030203e6572617571733c3b4c3b303b6f533b512052455454454c204c415449504143204e4954414c20444552415551533b3034314631,
0x3b3b3b3b3b4e3b3b3b3b32353030203e6572617571733c3b4c3b303b6f533b522052455454454c204c415449504143204e4954414c20444552415551533b3134314631,
0x3b3b3b3b3b4e3b3b3b3b33353030203e6572617571733c3b4c3b303b6f533b532052455454454c204c415449504143204e4954414c20444552415551533b3234314631,
0x3b3b3b3b3b4e3b3b3b3b34353030203e6572617571733c3b4c3b303b6f533b542052455454454c204c415449504143204e4954414c20444552415551533b3334314631,
0x3b3b3b3b3b4e3b3b3b3b35353030203e6572617571733c3b4c3b303b6f533b552052455454454c204c415449504143204e4954414c20444552415551533b3434314631,
0x3b3b3b3b3b4e3b3b3b3b36353030203e6572617571733c3b4c3b303b6f533b562052455454454c204c415449504143204e4954414c20444552415551533b3534314631,
0x3b3b3b3b3b4e3b3b3b3b37353030203e6572617571733c3b4c3b303b6f533b572052455454454c204c415449504143204e4954414c20444552415551533b3634314631,
0x3b3b3b3b3b4e3b3b3b3b38353030203e6572617571733c3b4c3b303b6f533b582052455454454c204c415449504143204e4954414c20444552415551533b3734314631,
0x3b3b3b3b3b4e3b3b3b3b39353030203e6572617571733c3b4c3b303b6f533b592052455454454c204c415449504143204e4954414c20444552415551533b3834314631,
0x3b3b3b3b3b4e3b3b3b3b41353030203e6572617571733c3b4c3b303b6f533b5a2052455454454c204c415449504143204e4954414c20444552415551533b3934314631,
0x3b3b3b3b3b4e3b3b3b3b363530302038343030203e6572617571733c3b4c3b303b6f533b564820444552415551533b4134314631,
0x3b3b3b3b3b4e3b3b3b3b363530302044343030203e6572617571733c3b4c3b303b6f533b564d20444552415551533b4234314631,
0x3b3b3b3b3b4e3b3b3b3b343430302033353030203e6572617571733c3b4c3b303b6f533b445320444552415551533b4334314631,
0x3b3b3b3b3b4e3b3b3b3b333530302033353030203e6572617571733c3b4c3b303b6f533b535320444552415551533b4434314631,
0x3b3b3b3b3b4e3b3b3b3b3635303020303530302030353030203e6572617571733c3b4c3b303b6f533b56505020444552415551533b4534314631,
0x3b3b3b3b3b4e3b3b3b3b333430302037353030203e6572617571733c3b4c3b303b6f533b435720444552415551533b4634314631,
0x3b3b3b3b3b4e3b3b3b3b3b4c3b303b6f533b412052455454454c204c415449504143204e4954414c2044454c4352494320455649544147454e3b3035314631,
0x3b3b3b3b3b4e3b3b3b3b3b4c3b303b6f533b422052455454454c204c415449504143204e4954414c2044454c4352494320455649544147454e3b3135314631,
0x3b3b3b3b3b4e3b3b3b3b3b4c3b303b6f533b432052455454454c204c415449504143204e4954414c2044454c4352494320455649544147454e3b3235314631,
0x3b3b3b3b3b4e3b3b3b3b3b4c3b303b6f533b442052455454454c204c415449504143204e4954414c2044454c4352494320455649544147454e3b3335314631,
0x3b3b3b3b3b4e3b3b3b3b3b4c3b303b6f533b452052455454454c204c415449504143204e4954414c2044454c4352494320455649544147454e3b3435314631,
0x3b3b3b3b3b4e3b3b3b3b3b4c3b303b6f533b462052455454454c204c415449504143204e4954414c2044454c4352494320455649544147454e3b3535314631,
0x3b3b3b3b3b4e3b3b3b3b3b4c3b303b6f533b472052455454454c204c415449504143204e4954414c2044454c4352494320455649544147454e3b3635314631,
0x3b3b3b3b3b4e3b3b3b3b3b4c3b303b6f533b482052455454454c204c415449504143204e4954414c2044454c4352494320455649544147454e3b3735314631,
0x3b3b3b3b3b4e3b3b3b3b3b4c3b303b6f533b492052455454454c204c415449504143204e4954414c2044454c4352494320455649544147454e3b3835314631,
0x3b3b3b3b3b4e3b3b3b3b3b4c3b303b6f533b4a2052455454454c204c415449504143204e4954414c2044454c4352494320455649544147454e3b3935314631,
0x3b3b3b3b3b4e3b3b3b3b3b4c3b303b6f533b4b2052455454454c204c415449504143204e4954414c2044454c4352494320455649544147454e3b4135314631,
0x3b3b3b3b3b4e3b3b3b3b3b4c3b303b6f533b4c2052455454454c204c415449504143204e4954414c2044454c4352494320455649544147454e3b4235314631,
0x3b3b3b3b3b4e3b3b3b3b3b4c3b303b6f533b4d2052455454454c204c415449504143204e4954414c2044454c4352494320455649544147454e3b4335314631,
0x3b3b3b3b3b4e3b3b3b3b3b4c3b303b6f533b4e2052455454454c204c415449504143204e4954414c2044454c4352494320455649544147454e3b4435314631,
0x3b3b3b3b3b4e3b3b3b3b3b4c3b303b6f533b4f2052455454454c204c415449504143204e4954414c2044454c4352494320455649544147454e3b4535314631,
0x3b3b3b3b3b4e3b3b3b3b3b4c3b303b6f533b502052455454454c204c415449504143204e4954414c2044454c4352494320455649544147454e3b4635314631,
0x3b3b3b3b3b4e3b3b3b3b3b4c3b303b6f533b512052455454454c204c415449504143204e4954414c2044454c4352494320455649544147454e3b3036314631,
0x3b3b3b3b3b4e3b3b3b3b3b4c3b303b6f533b522052455454454c204c415449504143204e4954414c2044454c4352494320455649544147454e3b3136314631,
0x3b3b3b3b3b4e3b3b3b3b3b4c3b303b6f533b532052455454454c204c415449504143204e4954414c2044454c4352494320455649544147454e3b3236314631,
0x3b3b3b3b3b4e3b3b3b3b3b4c3b303b6f533b542052455454454c204c415449504143204e4954414c2044454c4352494320455649544147454e3b3336314631,
0x3b3b3b3b3b4e3b3b3b3b3b4c3b303b6f533b552052455454454c204c415449504143204e4954414c2044454c4352494320455649544147454e3b3436314631,
0x3b3b3b3b3b4e3b3b3b3b3b4c3b303b6f533b562052455454454c204c415449504143204e4954414c2044454c4352494320455649544147454e3b3536314631,
0x3b3b3b3b3b4e3b3b3b3b3b4c3b303b6f533b572052455454454c204c415449504143204e4954414c2044454c4352494320455649544147454e3b3636314631,
0x3b3b3b3b3b4e3b3b3b3b3b4c3b303b6f533b582052455454454c204c415449504143204e4954414c2044454c4352494320455649544147454e3b3736314631,
0x3b3b3b3b3b4e3b3b3b3b3b4c3b303b6f533b592052455454454c204c415449504143204e4954414c2044454c4352494320455649544147454e3b3836314631,
0x3b3b3b3b3b4e3b3b3b3b3b4c3b303b6f533b5a2052455454454c204c415449504143204e4954414c2044454c4352494320455649544147454e3b3936314631,
0x3b3b3b3b3b4e3b3b3b3b333430302044343030203e72657075733c3b4e4f3b303b6f533b4e47495320434d204445534941523b4136314631,
0x3b3b3b3b3b4e3b3b3b3b343430302044343030203e72657075733c3b4e4f3b303b6f533b4e47495320444d204445534941523b4236314631,
0x3b3b3b3b3b4e3b3b3b3b3b4c3b303b6f533b412052455454454c204c415449504143204e4954414c204445524155515320455649544147454e3b3037314631,
0x3b3b3b3b3b4e3b3b3b3b3b4c3b303b6f533b422052455454454c204c415449504143204e4954414c204445524155515320455649544147454e3b3137314631,
0x3b3b3b3b3b4e3b3b3b3b3b4c3b303b6f533b432052455454454c204c415449504143204e4954414c204445524155515320455649544147454e3b3237314631,
0x3b3b3b3b3b4e3b3b3b3b3b4c3b303b6f533b442052455454454c204c415449504143204e4954414c204445524155515320455649544147454e3b3337314631,
0x3b3b3b3b3b4e3b3b3b3b3b4c3b303b6f533b452052455454454c204c415449504143204e4954414c204445524155515320455649544147454e3b3437314631,
0x3b3b3b3b3b4e3b3b3b3b3b4c3b303b6f533b462052455454454c204c415449504143204e4954414c204445524155515320455649544147454e3b3537314631,
0x3b3b3b3b3b4e3b3b3b3b3b4c3b303b6f533b472052455454454c204c415449504143204e4954414c204445524155515320455649544147454e3b3637314631,
0x3b3b3b3b3b4e3b3b3b3b3b4c3b303b6f533b482052455454454c204c415449504143204e4954414c204445524155515320455649544147454e3b3737314631,
0x3b3b3b3b3b4e3b3b3b3b3b4c3b303b6f533b492052455454454c204c415449504143204e4954414c204445524155515320455649544147454e3b3837314631,
0x3b3b3b3b3b4e3b3b3b3b3b4c3b303b6f533b4a2052455454454c204c415449504143204e4954414c204445524155515320455649544147454e3b3937314631,
0x3b3b3b3b3b4e3b3b3b3b3b4c3b303b6f533b4b2052455454454c204c415449504143204e4954414c204445524155515320455649544147454e3b4137314631,
0x3b3b3b3b3b4e3b3b3b3b3b4c3b303b6f533b4c2052455454454c204c415449504143204e4954414c204445524155515320455649544147454e3b4237314631,
0x3b3b3b3b3b4e3b3b3b3b3b4c3b303b6f533b4d2052455454454c204c415449504143204e4954414c204445524155515320455649544147454e3b4337314631,
0x3b3b3b3b3b4e3b3b3b3b3b4c3b303b6f533b4e2052455454454c204c415449504143204e4954414c204445524155515320455649544147454e3b4437314631,
0x3b3b3b3b3b4e3b3b3b3b3b4c3b303b6f533b4f2052455454454c204c415449504143204e4954414c204445524155515320455649544147454e3b4537314631,
0x3b3b3b3b3b4e3b3b3b3b3b4c3b303b6f533b502052455454454c204c415449504143204e4954414c204445524155515320455649544147454e3b4637314631,
0x3b3b3b3b3b4e3b3b3b3b3b4c3b303b6f533b512052455454454c204c415449504143204e4954414c204445524155515320455649544147454e3b3038314631,
0x3b3b3b3b3b4e3b3b3b3b3b4c3b303b6f533b522052455454454c204c415449504143204e4954414c204445524155515320455649544147454e3b3138314631,
0x3b3b3b3b3b4e3b3b3b3b3b4c3b303b6f533b532052455454454c204c415449504143204e4954414c204445524155515320455649544147454e3b3238314631,
0x3b3b3b3b3b4e3b3b3b3b3b4c3b303b6f533b542052455454454c204c415449504143204e4954414c204445524155515320455649544147454e3b3338314631,
0x3b3b3b3b3b4e3b3b3b3b3b4c3b303b6f533b552052455454454c204c415449504143204e4954414c204445524155515320455649544147454e3b3438314631,
0x3b3b3b3b3b4e3b3b3b3b3b4c3b303b6f533b562052455454454c204c415449504143204e4954414c204445524155515320455649544147454e3b3538314631,
0x3b3b3b3b3b4e3b3b3b3b3b4c3b303b6f533b572052455454454c204c415449504143204e4954414c204445524155515320455649544147454e3b3638314631,
0x3b3b3b3b3b4e3b3b3b3b3b4c3b303b6f533b582052455454454c204c415449504143204e4954414c204445524155515320455649544147454e3b3738314631,
0x3b3b3b3b3b4e3b3b3b3b3b4c3b303b6f533b592052455454454c204c415449504143204e4954414c204445524155515320455649544147454e3b3838314631,
0x3b3b3b3b3b4e3b3b3b3b3b4c3b303b6f533b5a2052455454454c204c415449504143204e4954414c204445524155515320455649544147454e3b3938314631,
0x3b3b3b3b3b4e3b3b3b3b3b4c3b303b6f533b502052455454454c204c415449504143204e4954414c204445524155515320455649544147454e20444553534f52433b4138314631,
0x3b3b3b3b3b4e3b3b3b3b3b4c3b303b6f533b4349204445524155515320455649544147454e3b4238314631,
0x3b3b3b3b3b4e3b3b3b3b3b4c3b303b6f533b4150204445524155515320455649544147454e3b4338314631,
0x3b3b3b3b3b4e3b3b3b3b3b4c3b303b6f533b4153204445524155515320455649544147454e3b4438314631,
0x3b3b3b3b3b4e3b3b3b3b3b4c3b303b6f533b4241204445524155515320455649544147454e3b4538314631,
0x3b3b3b3b3b4e3b3b3b3b3b4c3b303b6f533b4357204445524155515320455649544147454e3b4638314631,
0x3b3b3b3b3b4e3b3b3b3b413430302034343030203e6572617571733c3b4c3b303b6f533b4a44204552415551533b3039314631,
0x3b3b3b3b3b4e3b3b3b3b3b4c3b303b6f533b4c4320444552415551533b3139314631]

/-- src/u5e/props/UnicodeData.txt lines 28161-28416. -/
def rawUcd110 : List Nat := [
0x3b3b3b3b3b4e3b3b3b3b3b4c3b303b6f533b4c4f4f4320444552415551533b3239314631,
0x3b3b3b3b3b4e3b3b3b3b3b4c3b303b6f533b4545524620444552415551533b3339314631,
0x3b3b3b3b3b4e3b3b3b3b3b4c3b303b6f533b444920444552415551533b3439314631,
0x3b3b3b3b3b4e3b3b3b3b3b4c3b303b6f533b57454e20444552415551533b3539314631,
0x3b3b3b3b3b4e3b3b3b3b3b4c3b303b6f533b474e20444552415551533b3639314631,
0x3b3b3b3b3b4e3b3b3b3b3b4c3b303b6f533b4b4f20444552415551533b3739314631,
0x3b3b3b3b3b4e3b3b3b3b3b4c3b303b6f533b534f5320444552415551533b3839314631,
0x3b3b3b3b3b4e3b3b3b3b3b4c3b303b6f533b4b52414d204e4f4954414d414c435845204854495720505520444552415551533b3939314631,
0x3b3b3b3b3b4e3b3b3b3b3b4c3b303b6f533b535620444552415551533b4139314631,
0x3b3b3b3b3b4e3b3b3b3b3b4c3b303b6f533b4420454552485420444552415551533b4239314631,
0x3b3b3b3b3b4e3b3b3b3b3b4c3b303b6f533b4e454552435320444e4f43455320444552415551533b4339314631,
0x3b3b3b3b3b4e3b3b3b3b3b4c3b303b6f533b4b204f575420444552415551533b4439314631,
0x3b3b3b3b3b4e3b3b3b3b3b4c3b303b6f533b4b2052554f4620444552415551533b4539314631,
0x3b3b3b3b3b4e3b3b3b3b3b4c3b303b6f533b4b20544847494520444552415551533b4639314631,
0x3b3b3b3b3b4e3b3b3b3b3b4c3b303b6f533b454e4f20544e494f50204556494620444552415551533b3041314631,
0x3b3b3b3b3b4e3b3b3b3b3b4c3b303b6f533b454e4f20544e494f50204e4556455320444552415551533b3141314631,
0x3b3b3b3b3b4e3b3b3b3b3b4c3b303b6f533b4f575420544e494f50204f57542d59544e45575420444552415551533b3241314631,
0x3b3b3b3b3b4e3b3b3b3b3b4c3b303b6f533b5020595458495320444552415551533b3341314631,
0x3b3b3b3b3b4e3b3b3b3b3b4c3b303b6f533b502059544e45575420444552444e554820454e4f20444552415551533b3441314631,
0x3b3b3b3b3b4e3b3b3b3b3b4c3b303b6f533b442052455454454c204c4c414d53204e4954414c20444552415551533b3541314631,
0x3b3b3b3b3b4e3b3b3b3b3b4c3b303b6f533b434820444552415551533b3641314631,
0x3b3b3b3b3b4e3b3b3b3b3b4c3b303b6f533b52444820444552415551533b3741314631,
0x3b3b3b3b3b4e3b3b3b3b3b4c3b303b6f533b5345522d494820444552415551533b3841314631,
0x3b3b3b3b3b4e3b3b3b3b3b4c3b303b6f533b5353454c53534f4c20444552415551533b3941314631,
0x3b3b3b3b3b4e3b3b3b3b3b4c3b303b6f533b56485320444552415551533b4141314631,
0x3b3b3b3b3b4e3b3b3b3b3b4c3b303b6f533b44485520444552415551533b4241314631,
0x3b3b3b3b3b4e3b3b3b3b3b4c3b303b6f533b444f5620444552415551533b4341314631,
0x3b3b3b3b3b4e3b3b3b3b3b4c3b303b6f533b412052455454454c204c4f424d595320524f54414349444e49204c414e4f494745523b3645314631,
0x3b3b3b3b3b4e3b3b3b3b3b4c3b303b6f533b422052455454454c204c4f424d595320524f54414349444e49204c414e4f494745523b3745314631,
0x3b3b3b3b3b4e3b3b3b3b3b4c3b303b6f533b432052455454454c204c4f424d595320524f54414349444e49204c414e4f494745523b3845314631,
0x3b3b3b3b3b4e3b3b3b3b3b4c3b303b6f533b442052455454454c204c4f424d595320524f54414349444e49204c414e4f494745523b3945314631,
0x3b3b3b3b3b4e3b3b3b3b3b4c3b303b6f533b452052455454454c204c4f424d595320524f54414349444e49204c414e4f494745523b4145314631,
0x3b3b3b3b3b4e3b3b3b3b3b4c3b303b6f533b462052455454454c204c4f424d595320524f54414349444e49204c414e4f494745523b4245314631,
0x3b3b3b3b3b4e3b3b3b3b3b4c3b303b6f533b472052455454454c204c4f424d595320524f54414349444e49204c414e4f494745523b4345314631,
0x3b3b3b3b3b4e3b3b3b3b3b4c3b303b6f533b482052455454454c204c4f424d595320524f54414349444e49204c414e4f494745523b4445314631,
0x3b3b3b3b3b4e3b3b3b3b3b4c3b303b6f533b492052455454454c204c4f424d595320524f54414349444e49204c414e4f494745523b4545314631,
0x3b3b3b3b3b4e3b3b3b3b3b4c3b303b6f533b4a2052455454454c204c4f424d595320524f54414349444e49204c414e4f494745523b4645314631,
0x3b3b3b3b3b4e3b3b3b3b3b4c3b303b6f533b4b2052455454454c204c4f424d595320524f54414349444e49204c414e4f494745523b3046314631,
0x3b3b3b3b3b4e3b3b3b3b3b4c3b303b6f533b4c2052455454454c204c4f424d595320524f54414349444e49204c414e4f494745523b3146314631,
0x3b3b3b3b3b4e3b3b3b3b3b4c3b303b6f533b4d2052455454454c204c4f424d595320524f54414349444e49204c414e4f494745523b3246314631,
0x3b3b3b3b3b4e3b3b3b3b3b4c3b303b6f533b4e2052455454454c204c4f424d595320524f54414349444e49204c414e4f494745523b3346314631,
0x3b3b3b3b3b4e3b3b3b3b3b4c3b303b6f533b4f2052455454454c204c4f424d595320524f54414349444e49204c414e4f494745523b3446314631,
0x3b3b3b3b3b4e3b3b3b3b3b4c3b303b6f533b502052455454454c204c4f424d595320524f54414349444e49204c414e4f494745523b3546314631,
0x3b3b3b3b3b4e3b3b3b3b3b4c3b303b6f533b512052455454454c204c4f424d595320524f54414349444e49204c414e4f494745523b3646314631,
0x3b3b3b3b3b4e3b3b3b3b3b4c3b303b6f533b522052455454454c204c4f424d595320524f54414349444e49204c414e4f494745523b3746314631,
0x3b3b3b3b3b4e3b3b3b3b3b4c3b303b6f533b532052455454454c204c4f424d595320524f54414349444e49204c414e4f494745523b3846314631,
0x3b3b3b3b3b4e3b3b3b3b3b4c3b303b6f533b542052455454454c204c4f424d595320524f54414349444e49204c414e4f494745523b3946314631,
0x3b3b3b3b3b4e3b3b3b3b3b4c3b303b6f533b552052455454454c204c4f424d595320524f54414349444e49204c414e4f494745523b4146314631,
0x3b3b3b3b3b4e3b3b3b3b3b4c3b303b6f533b562052455454454c204c4f424d595320524f54414349444e49204c414e4f494745523b4246314631,
0x3b3b3b3b3b4e3b3b3b3b3b4c3b303b6f533b572052455454454c204c4f424d595320524f54414349444e49204c414e4f494745523b4346314631,
0x3b3b3b3b3b4e3b3b3b3b3b4c3b303b6f533b582052455454454c204c4f424d595320524f54414349444e49204c414e4f494745523b4446314631,
0x3b3b3b3b3b4e3b3b3b3b3b4c3b303b6f533b592052455454454c204c4f424d595320524f54414349444e49204c414e4f494745523b4546314631,
0x3b3b3b3b3b4e3b3b3b3b3b4c3b303b6f533b5a2052455454454c204c4f424d595320524f54414349444e49204c414e4f494745523b4646314631,
0x3b3b3b3b3b4e3b3b3b3b423430332042373033203e6572617571733c3b4c3b303b6f533b414b4f4820414e414741524948204552415551533b3030324631,
0x3b3b3b3b3b4e3b3b3b3b334230332033423033203e6572617571733c3b4c3b303b6f533b4f4b4f4b20414e414b4154414b20444552415551533b3130324631,
0x3b3b3b3b3b4e3b3b3b3b35423033203e6572617571733c3b4c3b303b6f533b415320414e414b4154414b20444552415551533b3230324631,
0x3b3b3b3b3b4e3b3b3b3b42343236203e6572617571733c3b4c3b303b6f533b423432362d48504152474f4544492044454946494e55204b4a4320444552415551533b3031324631,
0x3b3b3b3b3b4e3b3b3b3b37354235203e6572617571733c3b4c3b303b6f533b373542352d48504152474f4544492044454946494e55204b4a4320444552415551533b3131324631,
0x3b3b3b3b3b4e3b3b3b3b43433335203e6572617571733c3b4c3b303b6f533b434333352d48504152474f4544492044454946494e55204b4a4320444552415551533b3231324631,
0x3b3b3b3b3b4e3b3b3b3b37433033203e6572617571733c3b4c3b303b6f533b454420414e414b4154414b20444552415551533b3331324631,
0x3b3b3b3b3b4e3b3b3b3b43384534203e6572617571733c3b4c3b303b6f533b433845342d48504152474f4544492044454946494e55204b4a4320444552415551533b3431324631,
0x3b3b3b3b3b4e3b3b3b3b41313935203e6572617571733c3b4c3b303b6f533b413139352d48504152474f4544492044454946494e55204b4a4320444552415551533b3531324631,
0x3b3b3b3b3b4e3b3b3b3b33453938203e6572617571733c3b4c3b303b6f533b334539382d48504152474f4544492044454946494e55204b4a4320444552415551533b3631324631,
0x3b3b3b3b3b4e3b3b3b3b39323935203e6572617571733c3b4c3b303b6f533b393239352d48504152474f4544492044454946494e55204b4a4320444552415551533b3731324631,
0x3b3b3b3b3b4e3b3b3b3b34414534203e6572617571733c3b4c3b303b6f533b344145342d48504152474f4544492044454946494e55204b4a4320444552415551533b3831324631,
0x3b3b3b3b3b4e3b3b3b3b30323636203e6572617571733c3b4c3b303b6f533b303236362d48504152474f4544492044454946494e55204b4a4320444552415551533b3931324631,
0x3b3b3b3b3b4e3b3b3b3b31323137203e6572617571733c3b4c3b303b6f533b313231372d48504152474f4544492044454946494e55204b4a4320444552415551533b4131324631,
0x3b3b3b3b3b4e3b3b3b3b39393536203e6572617571733c3b4c3b303b6f533b393935362d48504152474f4544492044454946494e55204b4a4320444552415551533b4231324631,
0x3b3b3b3b3b4e3b3b3b3b44343235203e6572617571733c3b4c3b303b6f533b443432352d48504152474f4544492044454946494e55204b4a4320444552415551533b4331324631,
0x3b3b3b3b3b4e3b3b3b3b43384635203e6572617571733c3b4c3b303b6f533b433846352d48504152474f4544492044454946494e55204b4a4320444552415551533b4431324631,
0x3b3b3b3b3b4e3b3b3b3b44383135203e6572617571733c3b4c3b303b6f533b443831352d48504152474f4544492044454946494e55204b4a4320444552415551533b4531324631,
0x3b3b3b3b3b4e3b3b3b3b30423536203e6572617571733c3b4c3b303b6f533b304235362d48504152474f4544492044454946494e55204b4a4320444552415551533b4631324631,
0x3b3b3b3b3b4e3b3b3b3b44313235203e6572617571733c3b4c3b303b6f533b443132352d48504152474f4544492044454946494e55204b4a4320444552415551533b3032324631,
0x3b3b3b3b3b4e3b3b3b3b32344437203e6572617571733c3b4c3b303b6f533b323444372d48504152474f4544492044454946494e55204b4a4320444552415551533b3132324631,
0x3b3b3b3b3b4e3b3b3b3b46313537203e6572617571733c3b4c3b303b6f533b463135372d48504152474f4544492044454946494e55204b4a4320444552415551533b3232324631,
0x3b3b3b3b3b4e3b3b3b3b39414338203e6572617571733c3b4c3b303b6f533b394143382d48504152474f4544492044454946494e55204b4a4320444552415551533b3332324631,
0x3b3b3b3b3b4e3b3b3b3b30463835203e6572617571733c3b4c3b303b6f533b304638352d48504152474f4544492044454946494e55204b4a4320444552415551533b3432324631,
0x3b3b3b3b3b4e3b3b3b3b39333435203e6572617571733c3b4c3b303b6f533b393334352d48504152474f4544492044454946494e55204b4a4320444552415551533b3532324631,
0x3b3b3b3b3b4e3b3b3b3b34314636203e6572617571733c3b4c3b303b6f533b343146362d48504152474f4544492044454946494e55204b4a4320444552415551533b3632324631,
0x3b3b3b3b3b4e3b3b3b3b35393236203e6572617571733c3b4c3b303b6f533b353932362d48504152474f4544492044454946494e55204b4a4320444552415551533b3732324631,
0x3b3b3b3b3b4e3b3b3b3b35353336203e6572617571733c3b4c3b303b6f533b353533362d48504152474f4544492044454946494e55204b4a4320444552415551533b3832324631,
0x3b3b3b3b3b4e3b3b3b3b30304534203e6572617571733c3b4c3b303b6f533b303045342d48504152474f4544492044454946494e55204b4a4320444552415551533b3932324631,
0x3b3b3b3b3b4e3b3b3b3b39304534203e6572617571733c3b4c3b303b6f533b393045342d48504152474f4544492044454946494e55204b4a4320444552415551533b4132324631,
0x3b3b3b3b3b4e3b3b3b3b41343039203e6572617571733c3b4c3b303b6f533b413430392d48504152474f4544492044454946494e55204b4a4320444552415551533b4232324631,
0x3b3b3b3b3b4e3b3b3b3b36454435203e6572617571733c3b4c3b303b6f533b364544352d48504152474f4544492044454946494e55204b4a4320444552415551533b4332324631,
0x3b3b3b3b3b4e3b3b3b3b44324534203e6572617571733c3b4c3b303b6f533b443245342d48504152474f4544492044454946494e55204b4a4320444552415551533b4432324631,
0x3b3b3b3b3b4e3b3b3b3b33463335203e6572617571733c3b4c3b303b6f533b334633352d48504152474f4544492044454946494e55204b4a4320444552415551533b4532324631,
0x3b3b3b3b3b4e3b3b3b3b37303336203e6572617571733c3b4c3b303b6f533b373033362d48504152474f4544492044454946494e55204b4a4320444552415551533b4632324631,
0x3b3b3b3b3b4e3b3b3b3b30374438203e6572617571733c3b4c3b303b6f533b303744382d48504152474f4544492044454946494e55204b4a4320444552415551533b3033324631,
0x3b3b3b3b3b4e3b3b3b3b33353236203e6572617571733c3b4c3b303b6f533b333532362d48504152474f4544492044454946494e55204b4a4320444552415551533b3133324631,
0x3b3b3b3b3b4e3b3b3b3b31383937203e6572617571733c3b4c3b303b6f533b313839372d48504152474f4544492044454946494e55204b4a4320444552415551533b3233324631,
0x3b3b3b3b3b4e3b3b3b3b41374137203e6572617571733c3b4c3b303b6f533b413741372d48504152474f4544492044454946494e55204b4a4320444552415551533b3333324631,
0x3b3b3b3b3b4e3b3b3b3b38303435203e6572617571733c3b4c3b303b6f533b383034352d48504152474f4544492044454946494e55204b4a4320444552415551533b3433324631,
0x3b3b3b3b3b4e3b3b3b3b30384536203e6572617571733c3b4c3b303b6f533b303845362d48504152474f4544492044454946494e55204b4a4320444552415551533b3533324631,
0x3b3b3b3b3b4e3b3b3b3b39303736203e6572617571733c3b4c3b303b6f533b393037362d48504152474f4544492044454946494e55204b4a4320444552415551533b3633324631,
0x3b3b3b3b3b4e3b3b3b3b38303736203e6572617571733c3b4c3b303b6f533b383037362d48504152474f4544492044454946494e55204b4a4320444552415551533b3733324631,
0x3b3b3b3b3b4e3b3b3b3b33333537203e6572617571733c3b4c3b303b6f533b333335372d48504152474f4544492044454946494e55204b4a4320444552415551533b3833324631,
0x3b3b3b3b3b4e3b3b3b3b32373235203e6572617571733c3b4c3b303b6f533b323732352d48504152474f4544492044454946494e55204b4a4320444552415551533b3933324631,
0x3b3b3b3b3b4e3b3b3b3b36423535203e6572617571733c3b4c3b303b6f533b364235352d48504152474f4544492044454946494e55204b4a4320444552415551533b4133324631,
0x3b3b3b3b3b4e3b3b3b3b44343139203e6572617571733c3b4c3b303b6f533b443431392d48504152474f4544492044454946494e55204b4a4320444552415551533b4233324631,
0x3b3b3b3b3b4e3b3b3b3b3531303320433237362034313033203e7461706d6f633c3b4c3b303b6f533b433237362d48504152474f4544492044454946494e55204b4a4320444554454b43415242204c4c454853204553494f54524f543b3034324631,
0x3b3b3b3b3b4e3b3b3b3b3531303320393045342034313033203e7461706d6f633c3b4c3b303b6f533b393045342d48504152474f4544492044454946494e55204b4a4320444554454b43415242204c4c454853204553494f54524f543b3134324631,
0x3b3b3b3b3b4e3b3b3b3b3531303320433845342034313033203e7461706d6f633c3b4c3b303b6f533b433845342d48504152474f4544492044454946494e55204b4a4320444554454b43415242204c4c454853204553494f54524f543b3234324631,
0x3b3b3b3b3b4e3b3b3b3b3531303320393842352034313033203e7461706d6f633c3b4c3b303b6f533b393842352d48504152474f4544492044454946494e55204b4a4320444554454b43415242204c4c454853204553494f54524f543b3334324631,
0x3b3b3b3b3b4e3b3b3b3b3531303320394230372034313033203e7461706d6f633c3b4c3b303b6f533b394230372d48504152474f4544492044454946494e55204b4a4320444554454b43415242204c4c454853204553494f54524f543b3434324631,
0x3b3b3b3b3b4e3b3b3b3b3531303320333532362034313033203e7461706d6f633c3b4c3b303b6f533b333532362d48504152474f4544492044454946494e55204b4a4320444554454b43415242204c4c454853204553494f54524f543b3534324631,
0x3b3b3b3b3b4e3b3b3b3b3531303320374436372034313033203e7461706d6f633c3b4c3b303b6f533b374436372d48504152474f4544492044454946494e55204b4a4320444554454b43415242204c4c454853204553494f54524f543b3634324631,
0x3b3b3b3b3b4e3b3b3b3b3531303320444432352034313033203e7461706d6f633c3b4c3b303b6f533b444432352d48504152474f4544492044454946494e55204b4a4320444554454b43415242204c4c454853204553494f54524f543b3734324631,
0x3b3b3b3b3b4e3b3b3b3b3531303320373535362034313033203e7461706d6f633c3b4c3b303b6f533b373535362d48504152474f4544492044454946494e55204b4a4320444554454b43415242204c4c454853204553494f54524f543b3834324631,
0x3b3b3b3b3b4e3b3b3b3b37394635203e656c637269633c3b4c3b303b6f533b454741544e415644412048504152474f4544492044454c435249433b3035324631,
0x3b3b3b3b3b4e3b3b3b3b46453335203e656c637269633c3b4c3b303b6f533b5450454343412048504152474f4544492044454c435249433b3135324631,
0x3b3b3b3b3b4e3b3b3b3b3b4e4f3b303b6f533b454e4f4c4359433b3030334631,
0x3b3b3b3b3b4e3b3b3b3b3b4e4f3b303b6f533b5947474f463b3130334631,
0x3b3b3b3b3b4e3b3b3b3b3b4e4f3b303b6f533b414c4c4552424d55204445534f4c433b3230334631,
0x3b3b3b3b3b4e3b3b3b3b3b4e4f3b303b6f533b5352415453204854495720544847494e3b3330334631,
0x3b3b3b3b3b4e3b3b3b3b3b4e4f3b303b6f533b534e4941544e554f4d205245564f20455349524e55533b3430334631,
0x3b3b3b3b3b4e3b3b3b3b3b4e4f3b303b6f533b455349524e55533b3530334631,
0x3b3b3b3b3b4e3b3b3b3b3b4e4f3b303b6f533b4b535544205441204550414353595449433b3630334631,
0x3b3b3b3b3b4e3b3b3b3b3b4e4f3b303b6f533b53474e49444c495542205245564f205445534e55533b3730334631,
0x3b3b3b3b3b4e3b3b3b3b3b4e4f3b303b6f533b574f424e4941523b3830334631,
0x3b3b3b3b3b4e3b3b3b3b3b4e4f3b303b6f533b544847494e205441204547444952423b3930334631,
0x3b3b3b3b3b4e3b3b3b3b3b4e4f3b303b6f533b455641572052455441573b4130334631,
0x3b3b3b3b3b4e3b3b3b3b3b4e4f3b303b6f533b4f4e41434c4f563b4230334631,
0x3b3b3b3b3b4e3b3b3b3b3b4e4f3b303b6f533b59415720594b4c494d3b4330334631,
0x3b3b3b3b3b4e3b3b3b3b3b4e4f3b303b6f533b4143495246412d45504f5255452045424f4c472048545241453b4430334631,
0x3b3b3b3b3b4e3b3b3b3b3b4e4f3b303b6f533b5341434952454d412045424f4c472048545241453b4530334631,
0x3b3b3b3b3b4e3b3b3b3b3b4e4f3b303b6f533b41494c4152545355412d414953412045424f4c472048545241453b4630334631,
0x3b3b3b3b3b4e3b3b3b3b3b4e4f3b303b6f533b534e4149444952454d20485449572045424f4c473b3031334631,
0x3b3b3b3b3b4e3b3b3b3b3b4e4f3b303b6f533b4c4f424d5953204e4f4f4d2057454e3b3131334631,
0x3b3b3b3b3b4e3b3b3b3b3b4e4f3b303b6f533b4c4f424d5953204e4f4f4d20544e45435345524320474e495841573b3231334631,
0x3b3b3b3b3b4e3b3b3b3b3b4e4f3b303b6f533b4c4f424d5953204e4f4f4d20524554524155512054535249463b3331334631,
0x3b3b3b3b3b4e3b3b3b3b3b4e4f3b303b6f533b4c4f424d5953204e4f4f4d2053554f4242494720474e495841573b3431334631,
0x3b3b3b3b3b4e3b3b3b3b3b4e4f3b303b6f533b4c4f424d5953204e4f4f4d204c4c55463b3531334631,
0x3b3b3b3b3b4e3b3b3b3b3b4e4f3b303b6f533b4c4f424d5953204e4f4f4d2053554f4242494720474e494e41573b3631334631,
0x3b3b3b3b3b4e3b3b3b3b3b4e4f3b303b6f533b4c4f424d5953204e4f4f4d2052455452415551205453414c3b3731334631,
0x3b3b3b3b3b4e3b3b3b3b3b4e4f3b303b6f533b4c4f424d5953204e4f4f4d20544e45435345524320474e494e41573b3831334631,
0x3b3b3b3b3b4e3b3b3b3b3b4e4f3b303b6f533b4e4f4f4d20544e4543534552433b3931334631,
0x3b3b3b3b3b4e3b3b3b3b3b4e4f3b303b6f533b454341462048544957204e4f4f4d2057454e3b4131334631,
0x3b3b3b3b3b4e3b3b3b3b3b4e4f3b303b6f533b454341462048544957204e4f4f4d20524554524155512054535249463b4231334631,
0x3b3b3b3b3b4e3b3b3b3b3b4e4f3b303b6f533b454341462048544957204e4f4f4d2052455452415551205453414c3b4331334631,
0x3b3b3b3b3b4e3b3b3b3b3b4e4f3b303b6f533b454341462048544957204e4f4f4d204c4c55463b4431334631,
0x3b3b3b3b3b4e3b3b3b3b3b4e4f3b303b6f533b454341462048544957204e55533b4531334631,
0x3b3b3b3b3b4e3b3b3b3b3b4e4f3b303b6f533b5241545320474e49574f4c473b4631334631,
0x3b3b3b3b3b4e3b3b3b3b3b4e4f3b303b6f533b5241545320474e49544f4f48533b3032334631,
0x3b3b3b3b3b4e3b3b3b3b3b4e4f3b303b6f533b524554454d4f4d524548543b3132334631,
0x3b3b3b3b3b4e3b3b3b3b3b4e4f3b303b6f533b54454c504f5244204b43414c423b3232334631,
0x3b3b3b3b3b4e3b3b3b3b3b4e4f3b303b6f533b4e55532045544948573b3332334631,
0x3b3b3b3b3b4e3b3b3b3b3b4e4f3b303b6f533b44554f4c43204c4c414d532048544957204e55532045544948573b3432334631,
0x3b3b3b3b3b4e3b3b3b3b3b4e4f3b303b6f533b44554f4c4320444e49484542204e55532045544948573b3532334631,
0x3b3b3b3b3b4e3b3b3b3b3b4e4f3b303b6f533b4e49415220485449572044554f4c4320444e49484542204e55532045544948573b3632334631,
0x3b3b3b3b3b4e3b3b3b3b3b4e4f3b303b6f533b4e49415220485449572044554f4c433b3732334631,
0x3b3b3b3b3b4e3b3b3b3b3b4e4f3b303b6f533b574f4e5320485449572044554f4c433b3832334631,
0x3b3b3b3b3b4e3b3b3b3b3b4e4f3b303b6f533b474e494e544847494c20485449572044554f4c433b3932334631,
0x3b3b3b3b3b4e3b3b3b3b3b4e4f3b303b6f533b4f44414e524f5420485449572044554f4c433b4132334631,
0x3b3b3b3b3b4e3b3b3b3b3b4e4f3b303b6f533b474f463b4232334631,
0x3b3b3b3b3b4e3b3b3b3b3b4e4f3b303b6f533b4543414620474e49574f4c4220444e49573b4332334631,
0x3b3b3b3b3b4e3b3b3b3b3b4e4f3b303b6f533b474f4420544f483b4432334631,
0x3b3b3b3b3b4e3b3b3b3b3b4e4f3b303b6f533b4f4341543b4532334631,
0x3b3b3b3b3b4e3b3b3b3b3b4e4f3b303b6f533b4f5449525255423b4632334631,
0x3b3b3b3b3b4e3b3b3b3b3b4e4f3b303b6f533b54554e54534548433b3033334631,
0x3b3b3b3b3b4e3b3b3b3b3b4e4f3b303b6f533b474e494c444545533b3133334631,
0x3b3b3b3b3b4e3b3b3b3b3b4e4f3b303b6f533b45455254204e45455247524556453b3233334631,
0x3b3b3b3b3b4e3b3b3b3b3b4e4f3b303b6f533b454552542053554f5544494345443b3333334631,
0x3b3b3b3b3b4e3b3b3b3b3b4e4f3b303b6f533b45455254204d4c41503b3433334631,
0x3b3b3b3b3b4e3b3b3b3b3b4e4f3b303b6f533b5355544341433b3533334631,
0x3b3b3b3b3b4e3b3b3b3b3b4e4f3b303b6f533b52455050455020544f483b3633334631,
0x3b3b3b3b3b4e3b3b3b3b3b4e4f3b303b6f533b50494c55543b3733334631,
0x3b3b3b3b3b4e3b3b3b3b3b4e4f3b303b6f533b4d4f53534f4c42205952524548433b3833334631,
0x3b3b3b3b3b4e3b3b3b3b3b4e4f3b303b6f533b45534f523b3933334631,
0x3b3b3b3b3b4e3b3b3b3b3b4e4f3b303b6f533b53554353494249483b4133334631,
0x3b3b3b3b3b4e3b3b3b3b3b4e4f3b303b6f533b5245574f4c464e55533b4233334631,
0x3b3b3b3b3b4e3b3b3b3b3b4e4f3b303b6f533b4d4f53534f4c423b4333334631,
0x3b3b3b3b3b4e3b3b3b3b3b4e4f3b303b6f533b455a49414d20464f205241453b4433334631,
0x3b3b3b3b3b4e3b3b3b3b3b4e4f3b303b6f533b4543495220464f205241453b4533334631,
0x3b3b3b3b3b4e3b3b3b3b3b4e4f3b303b6f533b425245483b4633334631,
0x3b3b3b3b3b4e3b3b3b3b3b4e4f3b303b6f533b5245564f4c43204641454c2052554f463b3034334631,
0x3b3b3b3b3b4e3b3b3b3b3b4e4f3b303b6f533b4641454c20454c50414d3b3134334631,
0x3b3b3b3b3b4e3b3b3b3b3b4e4f3b303b6f533b4641454c204e454c4c41463b3234334631,
0x3b3b3b3b3b4e3b3b3b3b3b4e4f3b303b6f533b444e4957204e4920474e4952455454554c46204641454c3b3334334631,
0x3b3b3b3b3b4e3b3b3b3b3b4e4f3b303b6f533b4d4f4f524853554d3b3434334631,
0x3b3b3b3b3b4e3b3b3b3b3b4e4f3b303b6f533b4f54414d4f543b3534334631,
0x3b3b3b3b3b4e3b3b3b3b3b4e4f3b303b6f533b454e494752454255413b3634334631,
0x3b3b3b3b3b4e3b3b3b3b3b4e4f3b303b6f533b5345504152473b3734334631,
0x3b3b3b3b3b4e3b3b3b3b3b4e4f3b303b6f533b4e4f4c454d3b3834334631,
0x3b3b3b3b3b4e3b3b3b3b3b4e4f3b303b6f533b4e4f4c454d52455441573b3934334631,
0x3b3b3b3b3b4e3b3b3b3b3b4e4f3b303b6f533b454e495245474e41543b4134334631,
0x3b3b3b3b3b4e3b3b3b3b3b4e4f3b303b6f533b4e4f4d454c3b4234334631,
0x3b3b3b3b3b4e3b3b3b3b3b4e4f3b303b6f533b414e414e41423b4334334631,
0x3b3b3b3b3b4e3b3b3b3b3b4e4f3b303b6f533b454c505041454e49503b4434334631,
0x3b3b3b3b3b4e3b3b3b3b3b4e4f3b303b6f533b454c505041204445523b4534334631,
0x3b3b3b3b3b4e3b3b3b3b3b4e4f3b303b6f533b454c505041204e454552473b4634334631,
0x3b3b3b3b3b4e3b3b3b3b3b4e4f3b303b6f533b524145503b3035334631,
0x3b3b3b3b3b4e3b3b3b3b3b4e4f3b303b6f533b48434145503b3135334631,
0x3b3b3b3b3b4e3b3b3b3b3b4e4f3b303b6f533b53454952524548433b3235334631,
0x3b3b3b3b3b4e3b3b3b3b3b4e4f3b303b6f533b595252454257415254533b3335334631,
0x3b3b3b3b3b4e3b3b3b3b3b4e4f3b303b6f533b5245475255424d41483b3435334631,
0x3b3b3b3b3b4e3b3b3b3b3b4e4f3b303b6f533b415a5a495020464f204543494c533b3535334631,
0x3b3b3b3b3b4e3b3b3b3b3b4e4f3b303b6f533b454e4f42204e4f205441454d3b3635334631,
0x3b3b3b3b3b4e3b3b3b3b3b4e4f3b303b6f533b47454c205952544c554f503b3735334631,
0x3b3b3b3b3b4e3b3b3b3b3b4e4f3b303b6f533b52454b4341524320454349523b3835334631,
0x3b3b3b3b3b4e3b3b3b3b3b4e4f3b303b6f533b4c4c414220454349523b3935334631,
0x3b3b3b3b3b4e3b3b3b3b3b4e4f3b303b6f533b454349522044454b4f4f433b4135334631,
0x3b3b3b3b3b4e3b3b3b3b3b4e4f3b303b6f533b4543495220444e412059525255433b4235334631,
0x3b3b3b3b3b4e3b3b3b3b3b4e4f3b303b6f533b4c574f4220474e494d414554533b4335334631,
0x3b3b3b3b3b4e3b3b3b3b3b4e4f3b303b6f533b4954544548474150533b4435334631,
0x3b3b3b3b3b4e3b3b3b3b3b4e4f3b303b6f533b44414552423b4535334631,
0x3b3b3b3b3b4e3b3b3b3b3b4e4f3b303b6f533b53454952462048434e4552463b4635334631,
0x3b3b3b3b3b4e3b3b3b3b3b4e4f3b303b6f533b4f5441544f502054454557532044455453414f523b3036334631,
0x3b3b3b3b3b4e3b3b3b3b3b4e4f3b303b6f533b4f474e41443b3136334631,
0x3b3b3b3b3b4e3b3b3b3b3b4e4f3b303b6f533b4e45444f3b3236334631,
0x3b3b3b3b3b4e3b3b3b3b3b4e4f3b303b6f533b49485355533b3336334631,
0x3b3b3b3b3b4e3b3b3b3b3b4e4f3b303b6f533b504d495248532044454952463b3436334631,
0x3b3b3b3b3b4e3b3b3b3b3b4e4f3b303b6f533b4e4749534544204c52495753204854495720454b414320485349463b3536334631,
0x3b3b3b3b3b4e3b3b3b3b3b4e4f3b303b6f533b4d41455243204543492054464f533b3636334631,
0x3b3b3b3b3b4e3b3b3b3b3b4e4f3b303b6f533b454349204445564148533b3736334631,
0x3b3b3b3b3b4e3b3b3b3b3b4e4f3b303b6f533b4d41455243204543493b3836334631,
0x3b3b3b3b3b4e3b3b3b3b3b4e4f3b303b6f533b54554e4847554f443b3936334631,
0x3b3b3b3b3b4e3b3b3b3b3b4e4f3b303b6f533b45494b4f4f433b4136334631,
0x3b3b3b3b3b4e3b3b3b3b3b4e4f3b303b6f533b524142204554414c4f434f48433b4236334631,
0x3b3b3b3b3b4e3b3b3b3b3b4e4f3b303b6f533b59444e41433b4336334631,
0x3b3b3b3b3b4e3b3b3b3b3b4e4f3b303b6f533b504f50494c4c4f4c3b4436334631,
0x3b3b3b3b3b4e3b3b3b3b3b4e4f3b303b6f533b445241545355433b4536334631,
0x3b3b3b3b3b4e3b3b3b3b3b4e4f3b303b6f533b544f502059454e4f483b4636334631,
0x3b3b3b3b3b4e3b3b3b3b3b4e4f3b303b6f533b454b414354524f48533b3037334631,
0x3b3b3b3b3b4e3b3b3b3b3b4e4f3b303b6f533b584f42204f544e45423b3137334631,
0x3b3b3b3b3b4e3b3b3b3b3b4e4f3b303b6f533b444f4f4620464f20544f503b3237334631,
0x3b3b3b3b3b4e3b3b3b3b3b4e4f3b303b6f533b474e494b4f4f433b3337334631,
0x3b3b3b3b3b4e3b3b3b3b3b4e4f3b303b6f533b4546494e4b20444e41204b524f463b3437334631,
0x3b3b3b3b3b4e3b3b3b3b3b4e4f3b303b6f533b454c444e41482054554f48544957205055434145543b3537334631,
0x3b3b3b3b3b4e3b3b3b3b3b4e4f3b303b6f533b50554320444e4120454c54544f4220454b41533b3637334631,
0x3b3b3b3b3b4e3b3b3b3b3b4e4f3b303b6f533b5353414c4720454e49573b3737334631,
0x3b3b3b3b3b4e3b3b3b3b3b4e4f3b303b6f533b5353414c47204c4941544b434f433b3837334631,
0x3b3b3b3b3b4e3b3b3b3b3b4e4f3b303b6f533b4b4e495244204c414349504f52543b3937334631,
0x3b3b3b3b3b4e3b3b3b3b3b4e4f3b303b6f533b47554d20524545423b4137334631,
0x3b3b3b3b3b4e3b3b3b3b3b4e4f3b303b6f533b5347554d205245454220474e494b4e494c433b4237334631,
0x3b3b3b3b3b4e3b3b3b3b3b4e4f3b303b6f533b454c54544f4220594241423b4337334631,
0x3b3b3b3b3b4e3b3b3b3b3b4e4f3b303b6f533b4554414c502048544957204546494e4b20444e41204b524f463b4437334631,
0x3b3b3b3b3b4e3b3b3b3b3b4e4f3b303b6f533b4b524f4320474e4950504f50204854495720454c54544f423b4537334631,
0x3b3b3b3b3b4e3b3b3b3b3b4e4f3b303b6f533b4e524f43504f503b4637334631,
0x3b3b3b3b3b4e3b3b3b3b3b4e4f3b303b6f533b4e4f424249523b3038334631,
0x3b3b3b3b3b4e3b3b3b3b3b4e4f3b303b6f533b544e455345525020444550504152573b3138334631,
0x3b3b3b3b3b4e3b3b3b3b3b4e4f3b303b6f533b454b41432059414448545249423b3238334631,
0x3b3b3b3b3b4e3b3b3b3b3b4e4f3b303b6f533b4e5245544e414c2d4f2d4b43414a3b3338334631,
0x3b3b3b3b3b4e3b3b3b3b3b4e4f3b303b6f533b454552542053414d5453495248433b3438334631,
0x3b3b3b3b3b4e3b3b3b3b3b4e4f3b303b6f533b53414d545349524843205245485441463b3538334631,
0x3b3b3b3b3b4e3b3b3b3b3b4e4f3b303b6f533b534b524f57455249463b3638334631,
0x3b3b3b3b3b4e3b3b3b3b3b4e4f3b303b6f533b52454c4b52415053204b524f57455249463b3738334631,
0x3b3b3b3b3b4e3b3b3b3b3b4e4f3b303b6f533b4e4f4f4c4c41423b3838334631,
0x3b3b3b3b3b4e3b3b3b3b3b4e4f3b303b6f533b524550504f502059545241503b3938334631,
0x3b3b3b3b3b4e3b3b3b3b3b4e4f3b303b6f533b4c4c41422049545445464e4f433b4138334631,
0x3b3b3b3b3b4e3b3b3b3b3b4e4f3b303b6f533b454552542041544142414e41543b4238334631,
0x3b3b3b3b3b4e3b3b3b3b3b4e4f3b303b6f533b5347414c4620444553534f52433b4338334631,
0x3b3b3b3b3b4e3b3b3b3b3b4e4f3b303b6f533b4e4f495441524f43454420454e49503b4438334631,
0x3b3b3b3b3b4e3b3b3b3b3b4e4f3b303b6f533b534c4c4f44204553454e4150414a3b4538334631,
0x3b3b3b3b3b4e3b3b3b3b3b4e4f3b303b6f533b52454d414552545320505241433b4638334631,
0x3b3b3b3b3b4e3b3b3b3b3b4e4f3b303b6f533b454d49484320444e49573b3039334631]

/-- src/u5e/props/UnicodeData.txt lines 28417-28672. -/
def rawUcd111 : List Nat := [
0x3b3b3b3b3b4e3b3b3b3b3b4e4f3b303b6f533b594e4f4d4552454320474e4957454956204e4f4f4d3b3139334631,
0x3b3b3b3b3b4e3b3b3b3b3b4e4f3b303b6f533b4c454843544153204c4f4f4843533b3239334631,
0x3b3b3b3b3b4e3b3b3b3b3b4e4f3b303b6f533b504143204e4f49544155444152473b3339334631,
0x3b3b3b3b3b4e3b3b3b3b3b4e4f3b303b6f533b5446454c20454854204e4f2050495420485449572054524145483b3439334631,
0x3b3b3b3b3b4e3b3b3b3b3b4e4f3b303b6f533b535245574f4c4620464f2054455551554f423b3539334631,
0x3b3b3b3b3b4e3b3b3b3b3b4e4f3b303b6f533b4c4144454d2059524154494c494d3b3639334631,
0x3b3b3b3b3b4e3b3b3b3b3b4e4f3b303b6f533b4e4f42424952205245444e494d45523b3739334631,
0x3b3b3b3b3b4e3b3b3b3b3b4e4f3b303b6f533b534b43414a2048544957204452414f4259454b204c41434953554d3b3839334631,
0x3b3b3b3b3b4e3b3b3b3b3b4e4f3b303b6f533b454e4f48504f5243494d204f49445554533b3939334631,
0x3b3b3b3b3b4e3b3b3b3b3b4e4f3b303b6f533b524544494c53204c4556454c3b4139334631,
0x3b3b3b3b3b4e3b3b3b3b3b4e4f3b303b6f533b53424f4e4b204c4f52544e4f433b4239334631,
0x3b3b3b3b3b4e3b3b3b3b3b4e4f3b303b6f533b5345544f4e204c41434953554d20474e49444e454353412044454d4145423b4339334631,
0x3b3b3b3b3b4e3b3b3b3b3b4e4f3b303b6f533b5345544f4e204c41434953554d20474e49444e45435345442044454d4145423b4439334631,
0x3b3b3b3b3b4e3b3b3b3b3b4e4f3b303b6f533b53454d415246204d4c49463b4539334631,
0x3b3b3b3b3b4e3b3b3b3b3b4e4f3b303b6f533b5354454b434954204e4f495353494d44413b4639334631,
0x3b3b3b3b3b4e3b3b3b3b3b4e4f3b303b6f533b4553524f48204c4553554f5241433b3041334631,
0x3b3b3b3b3b4e3b3b3b3b3b4e4f3b303b6f533b4c45454857205349525245463b3141334631,
0x3b3b3b3b3b4e3b3b3b3b3b4e4f3b303b6f533b52455453414f432052454c4c4f523b3241334631,
0x3b3b3b3b3b4e3b3b3b3b3b4e4f3b303b6f533b4853494620444e4120454c4f5020474e49485349463b3341334631,
0x3b3b3b3b3b4e3b3b3b3b3b4e4f3b303b6f533b454e4f48504f5243494d3b3441334631,
0x3b3b3b3b3b4e3b3b3b3b3b4e4f3b303b6f533b4152454d4143204549564f4d3b3541334631,
0x3b3b3b3b3b4e3b3b3b3b3b4e4f3b303b6f533b414d454e49433b3641334631,
0x3b3b3b3b3b4e3b3b3b3b3b4e4f3b303b6f533b454e4f4850444145483b3741334631,
0x3b3b3b3b3b4e3b3b3b3b3b4e4f3b303b6f533b455454454c4150205453495452413b3841334631,
0x3b3b3b3b3b4e3b3b3b3b3b4e4f3b303b6f533b54414820504f543b3941334631,
0x3b3b3b3b3b4e3b3b3b3b3b4e4f3b303b6f533b544e4554205355435249433b4141334631,
0x3b3b3b3b3b4e3b3b3b3b3b4e4f3b303b6f533b54454b4349543b4241334631,
0x3b3b3b3b3b4e3b3b3b3b3b4e4f3b303b6f533b4452414f422052455050414c433b4341334631,
0x3b3b3b3b3b4e3b3b3b3b3b4e4f3b303b6f533b5354524120474e494d524f465245503b4441334631,
0x3b3b3b3b3b4e3b3b3b3b3b4e4f3b303b6f533b454d4147204f454449563b4541334631,
0x3b3b3b3b3b4e3b3b3b3b3b4e4f3b303b6f533b544948205443455249443b4641334631,
0x3b3b3b3b3b4e3b3b3b3b3b4e4f3b303b6f533b454e494843414d20544f4c533b3042334631,
0x3b3b3b3b3b4e3b3b3b3b3b4e4f3b303b6f533b53445241494c4c49423b3142334631,
0x3b3b3b3b3b4e3b3b3b3b3b4e4f3b303b6f533b45494420454d41473b3242334631,
0x3b3b3b3b3b4e3b3b3b3b3b4e4f3b303b6f533b474e494c574f423b3342334631,
0x3b3b3b3b3b4e3b3b3b3b3b4e4f3b303b6f533b534452414320474e4959414c50205245574f4c463b3442334631,
0x3b3b3b3b3b4e3b3b3b3b3b4e4f3b303b6f533b45544f4e204c41434953554d3b3542334631,
0x3b3b3b3b3b4e3b3b3b3b3b4e4f3b303b6f533b5345544f4e204c41434953554d20454c5049544c554d3b3642334631,
0x3b3b3b3b3b4e3b3b3b3b3b4e4f3b303b6f533b454e4f48504f5841533b3742334631,
0x3b3b3b3b3b4e3b3b3b3b3b4e4f3b303b6f533b5241544955473b3842334631,
0x3b3b3b3b3b4e3b3b3b3b3b4e4f3b303b6f533b4452414f4259454b204c41434953554d3b3942334631,
0x3b3b3b3b3b4e3b3b3b3b3b4e4f3b303b6f533b5445504d5552543b4142334631,
0x3b3b3b3b3b4e3b3b3b3b3b4e4f3b303b6f533b4e494c4f49563b4242334631,
0x3b3b3b3b3b4e3b3b3b3b3b4e4f3b303b6f533b45524f4353204c41434953554d3b4342334631,
0x3b3b3b3b3b4e3b3b3b3b3b4e4f3b303b6f533b48534153204854495720545249485320474e494e4e55523b4442334631,
0x3b3b3b3b3b4e3b3b3b3b3b4e4f3b303b6f533b4c4c414220444e4120544555514341522053494e4e45543b4542334631,
0x3b3b3b3b3b4e3b3b3b3b3b4e4f3b303b6f533b544f4f4220494b5320444e4120494b533b4642334631,
0x3b3b3b3b3b4e3b3b3b3b3b4e4f3b303b6f533b504f4f4820444e41204c4c414254454b5341423b3043334631,
0x3b3b3b3b3b4e3b3b3b3b3b4e4f3b303b6f533b47414c46204445524555514548433b3143334631,
0x3b3b3b3b3b4e3b3b3b3b3b4e4f3b303b6f533b52454452414f42574f4e533b3243334631,
0x3b3b3b3b3b4e3b3b3b3b3b4e4f3b303b6f533b52454e4e55523b3343334631,
0x3b3b3b3b3b4e3b3b3b3b3b4e4f3b303b6f533b5245465255533b3443334631,
0x3b3b3b3b3b4e3b3b3b3b3b4e4f3b303b6f533b4c4144454d205354524f50533b3543334631,
0x3b3b3b3b3b4e3b3b3b3b3b4e4f3b303b6f533b5948504f52543b3643334631,
0x3b3b3b3b3b4e3b3b3b3b3b4e4f3b303b6f533b474e49434152204553524f483b3743334631,
0x3b3b3b3b3b4e3b3b3b3b3b4e4f3b303b6f533b4c4c4142544f4f46204e41434952454d413b3843334631,
0x3b3b3b3b3b4e3b3b3b3b3b4e4f3b303b6f533b4c4c4142544f4f462059424755523b3943334631,
0x3b3b3b3b3b4e3b3b3b3b3b4e4f3b303b6f533b52454d4d4957533b4143334631,
0x3b3b3b3b3b4e3b3b3b3b3b4e4f3b303b6f533b52455446494c205448474945573b4243334631,
0x3b3b3b3b3b4e3b3b3b3b3b4e4f3b303b6f533b5245464c4f473b4343334631,
0x3b3b3b3b3b4e3b3b3b3b3b4e4f3b303b6f533b454c435943524f544f4d20474e494341523b4443334631,
0x3b3b3b3b3b4e3b3b3b3b3b4e4f3b303b6f533b52414320474e494341523b4543334631,
0x3b3b3b3b3b4e3b3b3b3b3b4e4f3b303b6f533b4c4c414220444e41205441422054454b434952433b4643334631,
0x3b3b3b3b3b4e3b3b3b3b3b4e4f3b303b6f533b4c4c414259454c4c4f563b3044334631,
0x3b3b3b3b3b4e3b3b3b3b3b4e4f3b303b6f533b4c4c414220444e41204b434954532059454b434f4820444c4549463b3144334631,
0x3b3b3b3b3b4e3b3b3b3b3b4e4f3b303b6f533b4b43555020444e41204b434954532059454b434f48204543493b3244334631,
0x3b3b3b3b3b4e3b3b3b3b3b4e4f3b303b6f533b4c4c414220444e4120454c444441502053494e4e455420454c4241543b3344334631,
0x3b3b3b3b3b4e3b3b3b3b3b4e4f3b303b6f533b4e4941544e554f4d2044455050414320574f4e533b3444334631,
0x3b3b3b3b3b4e3b3b3b3b3b4e4f3b303b6f533b474e49504d41433b3544334631,
0x3b3b3b3b3b4e3b3b3b3b3b4e4f3b303b6f533b414c4c4552424d5520485449572048434145423b3644334631,
0x3b3b3b3b3b4e3b3b3b3b3b4e4f3b303b6f533b4e4f495443555254534e4f4320474e49444c4955423b3744334631,
0x3b3b3b3b3b4e3b3b3b3b3b4e4f3b303b6f533b53474e49444c495542204553554f483b3844334631,
0x3b3b3b3b3b4e3b3b3b3b3b4e4f3b303b6f533b4550414353595449433b3944334631,
0x3b3b3b3b3b4e3b3b3b3b3b4e4f3b303b6f533b474e49444c495542204553554f48205443494c455245443b4144334631,
0x3b3b3b3b3b4e3b3b3b3b3b4e4f3b303b6f533b474e49444c495542204c4143495353414c433b4244334631,
0x3b3b3b3b3b4e3b3b3b3b3b4e4f3b303b6f533b5452455345443b4344334631,
0x3b3b3b3b3b4e3b3b3b3b3b4e4f3b303b6f533b444e414c5349205452455345443b4444334631,
0x3b3b3b3b3b4e3b3b3b3b3b4e4f3b303b6f533b4b524150204c414e4f4954414e3b4544334631,
0x3b3b3b3b3b4e3b3b3b3b3b4e4f3b303b6f533b4d5549444154533b4644334631,
0x3b3b3b3b3b4e3b3b3b3b3b4e4f3b303b6f533b474e49444c495542204553554f483b3045334631,
0x3b3b3b3b3b4e3b3b3b3b3b4e4f3b303b6f533b4e45445241472048544957204553554f483b3145334631,
0x3b3b3b3b3b4e3b3b3b3b3b4e4f3b303b6f533b474e49444c4955422045434946464f3b3245334631,
0x3b3b3b3b3b4e3b3b3b3b3b4e4f3b303b6f533b45434946464f2054534f50204553454e4150414a3b3345334631,
0x3b3b3b3b3b4e3b3b3b3b3b4e4f3b303b6f533b45434946464f2054534f50204e4145504f5255453b3445334631,
0x3b3b3b3b3b4e3b3b3b3b3b4e4f3b303b6f533b4c41544950534f483b3545334631,
0x3b3b3b3b3b4e3b3b3b3b3b4e4f3b303b6f533b4b4e41423b3645334631,
0x3b3b3b3b3b4e3b3b3b3b3b4e4f3b303b6f533b454e494843414d2052454c4c455420444554414d4f5455413b3745334631,
0x3b3b3b3b3b4e3b3b3b3b3b4e4f3b303b6f533b4c45544f483b3845334631,
0x3b3b3b3b3b4e3b3b3b3b3b4e4f3b303b6f533b4c45544f482045564f4c3b3945334631,
0x3b3b3b3b3b4e3b3b3b3b3b4e4f3b303b6f533b45524f54532045434e45494e45564e4f433b4145334631,
0x3b3b3b3b3b4e3b3b3b3b3b4e4f3b303b6f533b4c4f4f4843533b4245334631,
0x3b3b3b3b3b4e3b3b3b3b3b4e4f3b303b6f533b45524f545320544e454d5452415045443b4345334631,
0x3b3b3b3b3b4e3b3b3b3b3b4e4f3b303b6f533b59524f544341463b4445334631,
0x3b3b3b3b3b4e3b3b3b3b3b4e4f3b303b6f533b4e5245544e414c204159414b415a493b4545334631,
0x3b3b3b3b3b4e3b3b3b3b3b4e4f3b303b6f533b454c54534143204553454e4150414a3b4645334631,
0x3b3b3b3b3b4e3b3b3b3b3b4e4f3b303b6f533b454c54534143204e4145504f5255453b3046334631,
0x3b3b3b3b3b4e3b3b3b3b3b4e4f3b303b6f533b544e414e4e45502045544948573b3146334631,
0x3b3b3b3b3b4e3b3b3b3b3b4e4f3b303b6f533b544e414e4e4550204b43414c423b3246334631,
0x3b3b3b3b3b4e3b3b3b3b3b4e4f3b303b6f533b47414c4620455449485720474e495641573b3346334631,
0x3b3b3b3b3b4e3b3b3b3b3b4e4f3b303b6f533b47414c46204b43414c4220474e495641573b3446334631,
0x3b3b3b3b3b4e3b3b3b3b3b4e4f3b303b6f533b45545445534f523b3546334631,
0x3b3b3b3b3b4e3b3b3b3b3b4e4f3b303b6f533b45545445534f52204b43414c423b3646334631,
0x3b3b3b3b3b4e3b3b3b3b3b4e4f3b303b6f533b4c4542414c3b3746334631,
0x3b3b3b3b3b4e3b3b3b3b3b4e4f3b303b6f533b4b434f43454c545455485320444e412054455551434152204e4f544e494d4441423b3846334631,
0x3b3b3b3b3b4e3b3b3b3b3b4e4f3b303b6f533b574f52524120444e4120574f423b3946334631,
0x3b3b3b3b3b4e3b3b3b3b3b4e4f3b303b6f533b41524f48504d413b4146334631,
0x3b3b3b3b3b4e3b3b3b3b3b4e4f3b303b6b533b322d312d45505954204b4349525441505a544946205245494649444f4d20494a4f4d453b4246334631,
0x3b3b3b3b3b4e3b3b3b3b3b4e4f3b303b6b533b332d45505954204b4349525441505a544946205245494649444f4d20494a4f4d453b4346334631,
0x3b3b3b3b3b4e3b3b3b3b3b4e4f3b303b6b533b342d45505954204b4349525441505a544946205245494649444f4d20494a4f4d453b4446334631,
0x3b3b3b3b3b4e3b3b3b3b3b4e4f3b303b6b533b352d45505954204b4349525441505a544946205245494649444f4d20494a4f4d453b4546334631,
0x3b3b3b3b3b4e3b3b3b3b3b4e4f3b303b6b533b362d45505954204b4349525441505a544946205245494649444f4d20494a4f4d453b4646334631,
0x3b3b3b3b3b4e3b3b3b3b3b4e4f3b303b6f533b5441523b3030344631,
0x3b3b3b3b3b4e3b3b3b3b3b4e4f3b303b6f533b4553554f4d3b3130344631,
0x3b3b3b3b3b4e3b3b3b3b3b4e4f3b303b6f533b584f3b3230344631,
0x3b3b3b3b3b4e3b3b3b3b3b4e4f3b303b6f533b4f4c41464655422052455441573b3330344631,
0x3b3b3b3b3b4e3b3b3b3b3b4e4f3b303b6f533b574f433b3430344631,
0x3b3b3b3b3b4e3b3b3b3b3b4e4f3b303b6f533b52454749543b3530344631,
0x3b3b3b3b3b4e3b3b3b3b3b4e4f3b303b6f533b445241504f454c3b3630344631,
0x3b3b3b3b3b4e3b3b3b3b3b4e4f3b303b6f533b5449424241523b3730344631,
0x3b3b3b3b3b4e3b3b3b3b3b4e4f3b303b6f533b5441433b3830344631,
0x3b3b3b3b3b4e3b3b3b3b3b4e4f3b303b6f533b4e4f474152443b3930344631,
0x3b3b3b3b3b4e3b3b3b3b3b4e4f3b303b6f533b454c49444f434f52433b4130344631,
0x3b3b3b3b3b4e3b3b3b3b3b4e4f3b303b6f533b454c4148573b4230344631,
0x3b3b3b3b3b4e3b3b3b3b3b4e4f3b303b6f533b4c49414e533b4330344631,
0x3b3b3b3b3b4e3b3b3b3b3b4e4f3b303b6f533b454b414e533b4430344631,
0x3b3b3b3b3b4e3b3b3b3b3b4e4f3b303b6f533b4553524f483b4530344631,
0x3b3b3b3b3b4e3b3b3b3b3b4e4f3b303b6f533b4d41523b4630344631,
0x3b3b3b3b3b4e3b3b3b3b3b4e4f3b303b6f533b54414f473b3031344631,
0x3b3b3b3b3b4e3b3b3b3b3b4e4f3b303b6f533b50454548533b3131344631,
0x3b3b3b3b3b4e3b3b3b3b3b4e4f3b303b6f533b59454b4e4f4d3b3231344631,
0x3b3b3b3b3b4e3b3b3b3b3b4e4f3b303b6f533b524554534f4f523b3331344631,
0x3b3b3b3b3b4e3b3b3b3b3b4e4f3b303b6f533b4e454b434948433b3431344631,
0x3b3b3b3b3b4e3b3b3b3b3b4e4f3b303b6f533b474f443b3531344631,
0x3b3b3b3b3b4e3b3b3b3b3b4e4f3b303b6f533b4749503b3631344631,
0x3b3b3b3b3b4e3b3b3b3b3b4e4f3b303b6f533b52414f423b3731344631,
0x3b3b3b3b3b4e3b3b3b3b3b4e4f3b303b6f533b544e414850454c453b3831344631,
0x3b3b3b3b3b4e3b3b3b3b3b4e4f3b303b6f533b5355504f54434f3b3931344631,
0x3b3b3b3b3b4e3b3b3b3b3b4e4f3b303b6f533b4c4c454853204c41524950533b4131344631,
0x3b3b3b3b3b4e3b3b3b3b3b4e4f3b303b6f533b4755423b4231344631,
0x3b3b3b3b3b4e3b3b3b3b3b4e4f3b303b6f533b544e413b4331344631,
0x3b3b3b3b3b4e3b3b3b3b3b4e4f3b303b6f533b45454259454e4f483b4431344631,
0x3b3b3b3b3b4e3b3b3b3b3b4e4f3b303b6f533b454c54454542205944414c3b4531344631,
0x3b3b3b3b3b4e3b3b3b3b3b4e4f3b303b6f533b485349463b4631344631,
0x3b3b3b3b3b4e3b3b3b3b3b4e4f3b303b6f533b48534946204c414349504f52543b3032344631,
0x3b3b3b3b3b4e3b3b3b3b3b4e4f3b303b6f533b48534946574f4c423b3132344631,
0x3b3b3b3b3b4e3b3b3b3b3b4e4f3b303b6f533b454c545255543b3232344631,
0x3b3b3b3b3b4e3b3b3b3b3b4e4f3b303b6f533b4b4349484320474e4948435441483b3332344631,
0x3b3b3b3b3b4e3b3b3b3b3b4e4f3b303b6f533b4b4349484320594241423b3432344631,
0x3b3b3b3b3b4e3b3b3b3b3b4e4f3b303b6f533b4b43494843205942414220474e494341462d544e4f52463b3532344631,
0x3b3b3b3b3b4e3b3b3b3b3b4e4f3b303b6f533b445249423b3632344631,
0x3b3b3b3b3b4e3b3b3b3b3b4e4f3b303b6f533b4e4955474e45503b3732344631,
0x3b3b3b3b3b4e3b3b3b3b3b4e4f3b303b6f533b414c414f4b3b3832344631,
0x3b3b3b3b3b4e3b3b3b3b3b4e4f3b303b6f533b454c444f4f503b3932344631,
0x3b3b3b3b3b4e3b3b3b3b3b4e4f3b303b6f533b4c454d41432059524144454d4f52443b4132344631,
0x3b3b3b3b3b4e3b3b3b3b3b4e4f3b303b6f533b4c454d4143204e414952544341423b4232344631,
0x3b3b3b3b3b4e3b3b3b3b3b4e4f3b303b6f533b4e4948504c4f443b4332344631,
0x3b3b3b3b3b4e3b3b3b3b3b4e4f3b303b6f533b45434146204553554f4d3b4432344631,
0x3b3b3b3b3b4e3b3b3b3b3b4e4f3b303b6f533b4543414620574f433b4532344631,
0x3b3b3b3b3b4e3b3b3b3b3b4e4f3b303b6f533b454341462052454749543b4632344631,
0x3b3b3b3b3b4e3b3b3b3b3b4e4f3b303b6f533b45434146205449424241523b3033344631,
0x3b3b3b3b3b4e3b3b3b3b3b4e4f3b303b6f533b45434146205441433b3133344631,
0x3b3b3b3b3b4e3b3b3b3b3b4e4f3b303b6f533b45434146204e4f474152443b3233344631,
0x3b3b3b3b3b4e3b3b3b3b3b4e4f3b303b6f533b454c41485720474e4954554f50533b3333344631,
0x3b3b3b3b3b4e3b3b3b3b3b4e4f3b303b6f533b45434146204553524f483b3433344631,
0x3b3b3b3b3b4e3b3b3b3b3b4e4f3b303b6f533b454341462059454b4e4f4d3b3533344631,
0x3b3b3b3b3b4e3b3b3b3b3b4e4f3b303b6f533b4543414620474f443b3633344631,
0x3b3b3b3b3b4e3b3b3b3b3b4e4f3b303b6f533b45434146204749503b3733344631,
0x3b3b3b3b3b4e3b3b3b3b3b4e4f3b303b6f533b4543414620474f52463b3833344631,
0x3b3b3b3b3b4e3b3b3b3b3b4e4f3b303b6f533b4543414620524554534d41483b3933344631,
0x3b3b3b3b3b4e3b3b3b3b3b4e4f3b303b6f533b4543414620464c4f573b4133344631,
0x3b3b3b3b3b4e3b3b3b3b3b4e4f3b303b6f533b4543414620524145423b4233344631,
0x3b3b3b3b3b4e3b3b3b3b3b4e4f3b303b6f533b454341462041444e41503b4333344631,
0x3b3b3b3b3b4e3b3b3b3b3b4e4f3b303b6f533b45534f4e204749503b4433344631,
0x3b3b3b3b3b4e3b3b3b3b3b4e4f3b303b6f533b53544e495250205741503b4533344631,
0x3b3b3b3b3b4e3b3b3b3b3b4e4f3b303b6f533b4b4e554d504948433b4633344631,
0x3b3b3b3b3b4e3b3b3b3b3b4e4f3b303b6f533b534559453b3034344631,
0x3b3b3b3b3b4e3b3b3b3b3b4e4f3b303b6f533b4559453b3134344631,
0x3b3b3b3b3b4e3b3b3b3b3b4e4f3b303b6f533b5241453b3234344631,
0x3b3b3b3b3b4e3b3b3b3b3b4e4f3b303b6f533b45534f4e3b3334344631,
0x3b3b3b3b3b4e3b3b3b3b3b4e4f3b303b6f533b4854554f4d3b3434344631,
0x3b3b3b3b3b4e3b3b3b3b3b4e4f3b303b6f533b4555474e4f543b3534344631,
0x3b3b3b3b3b4e3b3b3b3b3b4e4f3b303b6f533b5845444e4920444e41484b43414220474e49544e494f502050552045544948573b3634344631,
0x3b3b3b3b3b4e3b3b3b3b3b4e4f3b303b6f533b5845444e4920444e41484b43414220474e49544e494f50204e574f442045544948573b3734344631,
0x3b3b3b3b3b4e3b3b3b3b3b4e4f3b303b6f533b5845444e4920444e41484b43414220474e49544e494f50205446454c2045544948573b3834344631,
0x3b3b3b3b3b4e3b3b3b3b3b4e4f3b303b6f533b5845444e4920444e41484b43414220474e49544e494f502054484749522045544948573b3934344631,
0x3b3b3b3b3b4e3b3b3b3b3b4e4f3b303b6f533b4e47495320444e4148204445545349463b4134344631,
0x3b3b3b3b3b4e3b3b3b3b3b4e4f3b303b6f533b4e47495320444e414820474e495641573b4234344631,
0x3b3b3b3b3b4e3b3b3b3b3b4e4f3b303b6f533b4e47495320444e4148204b4f3b4334344631,
0x3b3b3b3b3b4e3b3b3b3b3b4e4f3b303b6f533b4e4749532050552053424d5548543b4434344631,
0x3b3b3b3b3b4e3b3b3b3b3b4e4f3b303b6f533b4e474953204e574f442053424d5548543b4534344631,
0x3b3b3b3b3b4e3b3b3b3b3b4e4f3b303b6f533b4e4749532053444e414820474e495050414c433b4634344631,
0x3b3b3b3b3b4e3b3b3b3b3b4e4f3b303b6f533b4e4749532053444e4148204e45504f3b3035344631,
0x3b3b3b3b3b4e3b3b3b3b3b4e4f3b303b6f533b4e574f52433b3135344631,
0x3b3b3b3b3b4e3b3b3b3b3b4e4f3b303b6f533b54414820534e414d4f573b3235344631,
0x3b3b3b3b3b4e3b3b3b3b3b4e4f3b303b6f533b53455353414c474559453b3335344631,
0x3b3b3b3b3b4e3b3b3b3b3b4e4f3b303b6f533b4549544b43454e3b3435344631,
0x3b3b3b3b3b4e3b3b3b3b3b4e4f3b303b6f533b54524948532d543b3535344631,
0x3b3b3b3b3b4e3b3b3b3b3b4e4f3b303b6f533b534e41454a3b3635344631,
0x3b3b3b3b3b4e3b3b3b3b3b4e4f3b303b6f533b53534552443b3735344631,
0x3b3b3b3b3b4e3b3b3b3b3b4e4f3b303b6f533b4f4e4f4d494b3b3835344631,
0x3b3b3b3b3b4e3b3b3b3b3b4e4f3b303b6f533b494e494b49423b3935344631,
0x3b3b3b3b3b4e3b3b3b3b3b4e4f3b303b6f533b534548544f4c4320534e414d4f573b4135344631,
0x3b3b3b3b3b4e3b3b3b3b3b4e4f3b303b6f533b45535255503b4235344631,
0x3b3b3b3b3b4e3b3b3b3b3b4e4f3b303b6f533b474142444e41483b4335344631,
0x3b3b3b3b3b4e3b3b3b3b3b4e4f3b303b6f533b4843554f503b4435344631,
0x3b3b3b3b3b4e3b3b3b3b3b4e4f3b303b6f533b454f485320534e414d3b4535344631,
0x3b3b3b3b3b4e3b3b3b3b3b4e4f3b303b6f533b454f485320434954454c4854413b4635344631,
0x3b3b3b3b3b4e3b3b3b3b3b4e4f3b303b6f533b454f48532044454c4545482d484749483b3036344631,
0x3b3b3b3b3b4e3b3b3b3b3b4e4f3b303b6f533b4c41444e415320534e414d4f573b3136344631,
0x3b3b3b3b3b4e3b3b3b3b3b4e4f3b303b6f533b53544f4f4220534e414d4f573b3236344631,
0x3b3b3b3b3b4e3b3b3b3b3b4e4f3b303b6f533b53544e495250544f4f463b3336344631,
0x3b3b3b3b3b4e3b3b3b3b3b4e4f3b303b6f533b45545445554f484c4953204e4920545355423b3436344631,
0x3b3b3b3b3b4e3b3b3b3b3b4e4f3b303b6f533b45545445554f484c4953204e492053545355423b3536344631,
0x3b3b3b3b3b4e3b3b3b3b3b4e4f3b303b6f533b594f423b3636344631,
0x3b3b3b3b3b4e3b3b3b3b3b4e4f3b303b6f533b4c5249473b3736344631,
0x3b3b3b3b3b4e3b3b3b3b3b4e4f3b303b6f533b4e414d3b3836344631,
0x3b3b3b3b3b4e3b3b3b3b3b4e4f3b303b6f533b4e414d4f573b3936344631,
0x3b3b3b3b3b4e3b3b3b3b3b4e4f3b303b6f533b594c494d41463b4136344631,
0x3b3b3b3b3b4e3b3b3b3b3b4e4f3b303b6f533b53444e414820474e49444c4f48204e414d4f5720444e41204e414d3b4236344631,
0x3b3b3b3b3b4e3b3b3b3b3b4e4f3b303b6f533b53444e414820474e49444c4f48204e454d204f57543b4336344631,
0x3b3b3b3b3b4e3b3b3b3b3b4e4f3b303b6f533b53444e414820474e49444c4f48204e454d4f57204f57543b4436344631,
0x3b3b3b3b3b4e3b3b3b3b3b4e4f3b303b6f533b5245434946464f204543494c4f503b4536344631,
0x3b3b3b3b3b4e3b3b3b3b3b4e4f3b303b6f533b5352414520594e4e55422048544957204e414d4f573b4636344631,
0x3b3b3b3b3b4e3b3b3b3b3b4e4f3b303b6f533b4c49455620485449572045444952423b3037344631,
0x3b3b3b3b3b4e3b3b3b3b3b4e4f3b303b6f533b5249414820444e4f4c422048544957204e4f535245503b3137344631,
0x3b3b3b3b3b4e3b3b3b3b3b4e4f3b303b6f533b4f414d204950204155472048544957204e414d3b3237344631,
0x3b3b3b3b3b4e3b3b3b3b3b4e4f3b303b6f533b4e41425255542048544957204e414d3b3337344631,
0x3b3b3b3b3b4e3b3b3b3b3b4e4f3b303b6f533b4e414d205245444c4f3b3437344631,
0x3b3b3b3b3b4e3b3b3b3b3b4e4f3b303b6f533b4e414d4f57205245444c4f3b3537344631,
0x3b3b3b3b3b4e3b3b3b3b3b4e4f3b303b6f533b594241423b3637344631,
0x3b3b3b3b3b4e3b3b3b3b3b4e4f3b303b6f533b52454b524f57204e4f495443555254534e4f433b3737344631,
0x3b3b3b3b3b4e3b3b3b3b3b4e4f3b303b6f533b535345434e4952503b3837344631,
0x3b3b3b3b3b4e3b3b3b3b3b4e4f3b303b6f533b4552474f204553454e4150414a3b3937344631,
0x3b3b3b3b3b4e3b3b3b3b3b4e4f3b303b6f533b4e494c424f47204553454e4150414a3b4137344631,
0x3b3b3b3b3b4e3b3b3b3b3b4e4f3b303b6f533b54534f48473b4237344631,
0x3b3b3b3b3b4e3b3b3b3b3b4e4f3b303b6f533b4c45474e4120594241423b4337344631,
0x3b3b3b3b3b4e3b3b3b3b3b4e4f3b303b6f533b4e45494c41204c4149525453455252455441525458453b4437344631,
0x3b3b3b3b3b4e3b3b3b3b3b4e4f3b303b6f533b524554534e4f4d204e45494c413b4537344631,
0x3b3b3b3b3b4e3b3b3b3b3b4e4f3b303b6f533b504d493b4637344631,
0x3b3b3b3b3b4e3b3b3b3b3b4e4f3b303b6f533b4c4c554b533b3038344631,
0x3b3b3b3b3b4e3b3b3b3b3b4e4f3b303b6f533b4e4f53524550204b534544204e4f4954414d524f464e493b3138344631,
0x3b3b3b3b3b4e3b3b3b3b3b4e4f3b303b6f533b4e414d5344524155473b3238344631,
0x3b3b3b3b3b4e3b3b3b3b3b4e4f3b303b6f533b5245434e41443b3338344631,
0x3b3b3b3b3b4e3b3b3b3b3b4e4f3b303b6f533b4b4349545350494c3b3438344631,
0x3b3b3b3b3b4e3b3b3b3b3b4e4f3b303b6f533b4853494c4f50204c49414e3b3538344631,
0x3b3b3b3b3b4e3b3b3b3b3b4e4f3b303b6f533b4547415353414d20454341463b3638344631,
0x3b3b3b3b3b4e3b3b3b3b3b4e4f3b303b6f533b545543524941483b3738344631,
0x3b3b3b3b3b4e3b3b3b3b3b4e4f3b303b6f533b454c4f50205245425241423b3838344631,
0x3b3b3b3b3b4e3b3b3b3b3b4e4f3b303b6f533b45474e495259533b3938344631,
0x3b3b3b3b3b4e3b3b3b3b3b4e4f3b303b6f533b4c4c49503b4138344631,
0x3b3b3b3b3b4e3b3b3b3b3b4e4f3b303b6f533b4b52414d205353494b3b4238344631,
0x3b3b3b3b3b4e3b3b3b3b3b4e4f3b303b6f533b52455454454c2045564f4c3b4338344631,
0x3b3b3b3b3b4e3b3b3b3b3b4e4f3b303b6f533b474e49523b4438344631,
0x3b3b3b3b3b4e3b3b3b3b3b4e4f3b303b6f533b454e4f5453204d45473b4538344631,
0x3b3b3b3b3b4e3b3b3b3b3b4e4f3b303b6f533b5353494b3b4638344631,
0x3b3b3b3b3b4e3b3b3b3b3b4e4f3b303b6f533b54455551554f423b3039344631]

/-- src/u5e/props/UnicodeData.txt lines 28673-28928. -/
def rawUcd112 : List Nat := [
0x3b3b3b3b3b4e3b3b3b3b3b4e4f3b303b6f533b5452414548204854495720454c50554f433b3139344631,
0x3b3b3b3b3b4e3b3b3b3b3b4e4f3b303b6f533b474e49444445573b3239344631,
0x3b3b3b3b3b4e3b3b3b3b3b4e4f3b303b6f533b545241454820474e49544145423b3339344631,
0x3b3b3b3b3b4e3b3b3b3b3b4e4f3b303b6f533b5452414548204e454b4f52423b3439344631,
0x3b3b3b3b3b4e3b3b3b3b3b4e4f3b303b6f533b535452414548204f57543b3539344631,
0x3b3b3b3b3b4e3b3b3b3b3b4e4f3b303b6f533b545241454820474e494c4b524150533b3639344631,
0x3b3b3b3b3b4e3b3b3b3b3b4e4f3b303b6f533b545241454820474e49574f52473b3739344631,
0x3b3b3b3b3b4e3b3b3b3b3b4e4f3b303b6f533b574f52524120485449572054524145483b3839344631,
0x3b3b3b3b3b4e3b3b3b3b3b4e4f3b303b6f533b54524145482045554c423b3939344631,
0x3b3b3b3b3b4e3b3b3b3b3b4e4f3b303b6f533b5452414548204e454552473b4139344631,
0x3b3b3b3b3b4e3b3b3b3b3b4e4f3b303b6f533b545241454820574f4c4c45593b4239344631,
0x3b3b3b3b3b4e3b3b3b3b3b4e4f3b303b6f533b545241454820454c505255503b4339344631,
0x3b3b3b3b3b4e3b3b3b3b3b4e4f3b303b6f533b4e4f4242495220485449572054524145483b4439344631,
0x3b3b3b3b3b4e3b3b3b3b3b4e4f3b303b6f533b53545241454820474e49564c4f5645523b4539344631,
0x3b3b3b3b3b4e3b3b3b3b3b4e4f3b303b6f533b4e4f495441524f4345442054524145483b4639344631,
0x3b3b3b3b3b4e3b3b3b3b3b4e4f3b303b6f533b454449534e4920544f442041204854495720455041485320444e4f4d4149443b3041344631,
0x3b3b3b3b3b4e3b3b3b3b3b4e4f3b303b6f533b424c554220544847494c204349525443454c453b3141344631,
0x3b3b3b3b3b4e3b3b3b3b3b4e4f3b303b6f533b4c4f424d5953205245474e413b3241344631,
0x3b3b3b3b3b4e3b3b3b3b3b4e4f3b303b6f533b424d4f423b3341344631,
0x3b3b3b3b3b4e3b3b3b3b3b4e4f3b303b6f533b4c4f424d595320474e495045454c533b3441344631,
0x3b3b3b3b3b4e3b3b3b3b3b4e4f3b303b6f533b4c4f424d5953204e4f4953494c4c4f433b3541344631,
0x3b3b3b3b3b4e3b3b3b3b3b4e4f3b303b6f533b4c4f424d595320544145575320474e494853414c50533b3641344631,
0x3b3b3b3b3b4e3b3b3b3b3b4e4f3b303b6f533b54454c504f52443b3741344631,
0x3b3b3b3b3b4e3b3b3b3b3b4e4f3b303b6f533b4c4f424d595320485341443b3841344631,
0x3b3b3b3b3b4e3b3b3b3b3b4e4f3b303b6f533b4f4f5020464f20454c49503b3941344631,
0x3b3b3b3b3b4e3b3b3b3b3b4e4f3b303b6f533b53504543494220444558454c463b4141344631,
0x3b3b3b3b3b4e3b3b3b3b3b4e4f3b303b6f533b4c4f424d595320595a5a49443b4241344631,
0x3b3b3b3b3b4e3b3b3b3b3b4e4f3b303b6f533b4e4f4f4c4c4142204843454550533b4341344631,
0x3b3b3b3b3b4e3b3b3b3b3b4e4f3b303b6f533b4e4f4f4c4c414220544847554f48543b4441344631,
0x3b3b3b3b3b4e3b3b3b3b3b4e4f3b303b6f533b5245574f4c462045544948573b4541344631,
0x3b3b3b3b3b4e3b3b3b3b3b4e4f3b303b6f533b4c4f424d59532053544e494f5020444552444e55483b4641344631,
0x3b3b3b3b3b4e3b3b3b3b3b4e4f3b303b6f533b4741422059454e4f4d3b3042344631,
0x3b3b3b3b3b4e3b3b3b3b3b4e4f3b303b6f533b45474e41484358452059434e45525255433b3142344631,
0x3b3b3b3b3b4e3b3b3b3b3b4e4f3b303b6f533b4e4749532052414c4c4f442059564145483b3242344631,
0x3b3b3b3b3b4e3b3b3b3b3b4e4f3b303b6f533b44524143205449444552433b3342344631,
0x3b3b3b3b3b4e3b3b3b3b3b4e4f3b303b6f533b4e474953204e455920485449572045544f4e4b4e41423b3442344631,
0x3b3b3b3b3b4e3b3b3b3b3b4e4f3b303b6f533b4e4749532052414c4c4f4420485449572045544f4e4b4e41423b3542344631,
0x3b3b3b3b3b4e3b3b3b3b3b4e4f3b303b6f533b4e474953204f52554520485449572045544f4e4b4e41423b3642344631,
0x3b3b3b3b3b4e3b3b3b3b3b4e4f3b303b6f533b4e47495320444e554f5020485449572045544f4e4b4e41423b3742344631,
0x3b3b3b3b3b4e3b3b3b3b3b4e4f3b303b6f533b53474e495720485449572059454e4f4d3b3842344631,
0x3b3b3b3b3b4e3b3b3b3b3b4e4f3b303b6f533b4e474953204e455920444e4120444e455254205344524157505520485449572054524148433b3942344631,
0x3b3b3b3b3b4e3b3b3b3b3b4e4f3b303b6f533b544145533b4142344631,
0x3b3b3b3b3b4e3b3b3b3b3b4e4f3b303b6f533b52455455504d4f43204c414e4f535245503b4242344631,
0x3b3b3b3b3b4e3b3b3b3b3b4e4f3b303b6f533b4553414346454952423b4342344631,
0x3b3b3b3b3b4e3b3b3b3b3b4e4f3b303b6f533b43534944494e494d3b4442344631,
0x3b3b3b3b3b4e3b3b3b3b3b4e4f3b303b6f533b4b534944205950504f4c463b4542344631,
0x3b3b3b3b3b4e3b3b3b3b3b4e4f3b303b6f533b43534944204c41434954504f3b4642344631,
0x3b3b3b3b3b4e3b3b3b3b3b4e4f3b303b6f533b4456443b3043344631,
0x3b3b3b3b3b4e3b3b3b3b3b4e4f3b303b6f533b5245444c4f4620454c49463b3143344631,
0x3b3b3b3b3b4e3b3b3b3b3b4e4f3b303b6f533b5245444c4f4620454c4946204e45504f3b3243344631,
0x3b3b3b3b3b4e3b3b3b3b3b4e4f3b303b6f533b4c525543204854495720454741503b3343344631,
0x3b3b3b3b3b4e3b3b3b3b3b4e4f3b303b6f533b505520474e4943414620454741503b3443344631,
0x3b3b3b3b3b4e3b3b3b3b3b4e4f3b303b6f533b5241444e454c41433b3543344631,
0x3b3b3b3b3b4e3b3b3b3b3b4e4f3b303b6f533b5241444e454c41432046464f2d524145543b3643344631,
0x3b3b3b3b3b4e3b3b3b3b3b4e4f3b303b6f533b5845444e4920445241433b3743344631,
0x3b3b3b3b3b4e3b3b3b3b3b4e4f3b303b6f533b444e455254205344524157505520485449572054524148433b3843344631,
0x3b3b3b3b3b4e3b3b3b3b3b4e4f3b303b6f533b444e4552542053445241574e574f4420485449572054524148433b3943344631,
0x3b3b3b3b3b4e3b3b3b3b3b4e4f3b303b6f533b5452414843205241423b4143344631,
0x3b3b3b3b3b4e3b3b3b3b3b4e4f3b303b6f533b4452414f4250494c433b4243344631,
0x3b3b3b3b3b4e3b3b3b3b3b4e4f3b303b6f533b4e4950485355503b4343344631,
0x3b3b3b3b3b4e3b3b3b3b3b4e4f3b303b6f533b4e49504853555020444e554f523b4443344631,
0x3b3b3b3b3b4e3b3b3b3b3b4e4f3b303b6f533b50494c4352455041503b4543344631,
0x3b3b3b3b3b4e3b3b3b3b3b4e4f3b303b6f533b52454c55522054484749415254533b4643344631,
0x3b3b3b3b3b4e3b3b3b3b3b4e4f3b303b6f533b52454c55522052414c55474e414952543b3044344631,
0x3b3b3b3b3b4e3b3b3b3b3b4e4f3b303b6f533b53424154204b52414d4b4f4f423b3144344631,
0x3b3b3b3b3b4e3b3b3b3b3b4e4f3b303b6f533b52454744454c3b3244344631,
0x3b3b3b3b3b4e3b3b3b3b3b4e4f3b303b6f533b4b4f4f4245544f4e3b3344344631,
0x3b3b3b3b3b4e3b3b3b3b3b4e4f3b303b6f533b5245564f43204556495441524f4345442048544957204b4f4f4245544f4e3b3444344631,
0x3b3b3b3b3b4e3b3b3b3b3b4e4f3b303b6f533b4b4f4f42204445534f4c433b3544344631,
0x3b3b3b3b3b4e3b3b3b3b3b4e4f3b303b6f533b4b4f4f42204e45504f3b3644344631,
0x3b3b3b3b3b4e3b3b3b3b3b4e4f3b303b6f533b4b4f4f42204e454552473b3744344631,
0x3b3b3b3b3b4e3b3b3b3b3b4e4f3b303b6f533b4b4f4f422045554c423b3844344631,
0x3b3b3b3b3b4e3b3b3b3b3b4e4f3b303b6f533b4b4f4f422045474e41524f3b3944344631,
0x3b3b3b3b3b4e3b3b3b3b3b4e4f3b303b6f533b534b4f4f423b4144344631,
0x3b3b3b3b3b4e3b3b3b3b3b4e4f3b303b6f533b454744414220454d414e3b4244344631,
0x3b3b3b3b3b4e3b3b3b3b3b4e4f3b303b6f533b4c4c4f5243533b4344344631,
0x3b3b3b3b3b4e3b3b3b3b3b4e4f3b303b6f533b4f4d454d3b4444344631,
0x3b3b3b3b3b4e3b3b3b3b3b4e4f3b303b6f533b524556494543455220454e4f4850454c45543b4544344631,
0x3b3b3b3b3b4e3b3b3b3b3b4e4f3b303b6f533b52454741503b4644344631,
0x3b3b3b3b3b4e3b3b3b3b3b4e4f3b303b6f533b454e494843414d205841463b3045344631,
0x3b3b3b3b3b4e3b3b3b3b3b4e4f3b303b6f533b414e4e45544e41204554494c4c455441533b3145344631,
0x3b3b3b3b3b4e3b3b3b3b3b4e4f3b303b6f533b52454b4145505344554f4c20535345524444412043494c4255503b3245344631,
0x3b3b3b3b3b4e3b3b3b3b3b4e4f3b303b6f533b454e4f48504147454d20474e4952454548433b3345344631,
0x3b3b3b3b3b4e3b3b3b3b3b4e4f3b303b6f533b5941525420584f4254554f3b3445344631,
0x3b3b3b3b3b4e3b3b3b3b3b4e4f3b303b6f533b5941525420584f424e493b3545344631,
0x3b3b3b3b3b4e3b3b3b3b3b4e4f3b303b6f533b4547414b4341503b3645344631,
0x3b3b3b3b3b4e3b3b3b3b3b4e4f3b303b6f533b4c4f424d5953204c49414d2d453b3745344631,
0x3b3b3b3b3b4e3b3b3b3b3b4e4f3b303b6f533b45504f4c45564e4520474e494d4f434e493b3845344631,
0x3b3b3b3b3b4e3b3b3b3b3b4e4f3b303b6f533b45564f424120574f5252412053445241574e574f4420485449572045504f4c45564e453b3945344631,
0x3b3b3b3b3b4e3b3b3b3b3b4e4f3b303b6f533b47414c462044455245574f4c204854495720584f424c49414d204445534f4c433b4145344631,
0x3b3b3b3b3b4e3b3b3b3b3b4e4f3b303b6f533b47414c4620444553494152204854495720584f424c49414d204445534f4c433b4245344631,
0x3b3b3b3b3b4e3b3b3b3b3b4e4f3b303b6f533b47414c4620444553494152204854495720584f424c49414d204e45504f3b4345344631,
0x3b3b3b3b3b4e3b3b3b3b3b4e4f3b303b6f533b47414c462044455245574f4c204854495720584f424c49414d204e45504f3b4445344631,
0x3b3b3b3b3b4e3b3b3b3b3b4e4f3b303b6f533b584f4254534f503b4545344631,
0x3b3b3b3b3b4e3b3b3b3b3b4e4f3b303b6f533b4e524f48204c4154534f503b4645344631,
0x3b3b3b3b3b4e3b3b3b3b3b4e4f3b303b6f533b52455041505357454e3b3046344631,
0x3b3b3b3b3b4e3b3b3b3b3b4e4f3b303b6f533b454e4f485020454c49424f4d3b3146344631,
0x3b3b3b3b3b4e3b3b3b3b3b4e4f3b303b6f533b5446454c20544120574f5252412053445241575448474952204854495720454e4f485020454c49424f4d3b3246344631,
0x3b3b3b3b3b4e3b3b3b3b3b4e4f3b303b6f533b45444f4d204e4f495441524249563b3346344631,
0x3b3b3b3b3b4e3b3b3b3b3b4e4f3b303b6f533b46464f20454e4f485020454c49424f4d3b3446344631,
0x3b3b3b3b3b4e3b3b3b3b3b4e4f3b303b6f533b53454e4f485020454c49424f4d204f4e3b3546344631,
0x3b3b3b3b3b4e3b3b3b3b3b4e4f3b303b6f533b53524142204854495720414e4e45544e413b3646344631,
0x3b3b3b3b3b4e3b3b3b3b3b4e4f3b303b6f533b4152454d41433b3746344631,
0x3b3b3b3b3b4e3b3b3b3b3b4e4f3b303b6f533b4853414c462048544957204152454d41433b3846344631,
0x3b3b3b3b3b4e3b3b3b3b3b4e4f3b303b6f533b4152454d4143204f454449563b3946344631,
0x3b3b3b3b3b4e3b3b3b3b3b4e4f3b303b6f533b4e4f49534956454c45543b4146344631,
0x3b3b3b3b3b4e3b3b3b3b3b4e4f3b303b6f533b4f494441523b4246344631,
0x3b3b3b3b3b4e3b3b3b3b3b4e4f3b303b6f533b45545445535341434f454449563b4346344631,
0x3b3b3b3b3b4e3b3b3b3b3b4e4f3b303b6f533b524f5443454a4f5250204d4c49463b4446344631,
0x3b3b3b3b3b4e3b3b3b3b3b4e4f3b303b6f533b4f455245545320454c424154524f503b4546344631,
0x3b3b3b3b3b4e3b3b3b3b3b4e4f3b303b6f533b5344414542205245594152503b4646344631,
0x3b3b3b3b3b4e3b3b3b3b3b4e4f3b303b6f533b53574f525241205344524157544847495220444554534957543b3030354631,
0x3b3b3b3b3b4e3b3b3b3b3b4e4f3b303b6f533b53574f52524120454c43524943204e45504f2053445241575446454c20444e41205344524157544847495220455349574b434f4c433b3130354631,
0x3b3b3b3b3b4e3b3b3b3b3b4e4f3b303b6f533b59414c5245564f20454e4f2044454c4352494320485449572053574f52524120454c43524943204e45504f2053445241575446454c20444e41205344524157544847495220455349574b434f4c433b3230354631,
0x3b3b3b3b3b4e3b3b3b3b3b4e4f3b303b6f533b53574f52524120454c43524943204e45504f205344524157505520444e412053445241574e574f4420455349574b434f4c433b3330354631,
0x3b3b3b3b3b4e3b3b3b3b3b4e4f3b303b6f533b53574f52524120454c43524943204e45504f205344524157505520444e412053445241574e574f4420455349574b434f4c4349544e413b3430354631,
0x3b3b3b3b3b4e3b3b3b3b3b4e4f3b303b6f533b4c4f424d5953205353454e54484749524220574f4c3b3530354631,
0x3b3b3b3b3b4e3b3b3b3b3b4e4f3b303b6f533b4c4f424d5953205353454e54484749524220484749483b3630354631,
0x3b3b3b3b3b4e3b3b3b3b3b4e4f3b303b6f533b454b4f525453204e4f4954414c4c45434e414320485449572052454b414550533b3730354631,
0x3b3b3b3b3b4e3b3b3b3b3b4e4f3b303b6f533b52454b414550533b3830354631,
0x3b3b3b3b3b4e3b3b3b3b3b4e4f3b303b6f533b4556415720444e554f5320454e4f20485449572052454b414550533b3930354631,
0x3b3b3b3b3b4e3b3b3b3b3b4e4f3b303b6f533b534556415720444e554f5320454552485420485449572052454b414550533b4130354631,
0x3b3b3b3b3b4e3b3b3b3b3b4e4f3b303b6f533b595245545441423b4230354631,
0x3b3b3b3b3b4e3b3b3b3b3b4e4f3b303b6f533b47554c50204349525443454c453b4330354631,
0x3b3b3b3b3b4e3b3b3b3b3b4e4f3b303b6f533b5353414c4720474e495946494e47414d20474e49544e494f502d5446454c3b4430354631,
0x3b3b3b3b3b4e3b3b3b3b3b4e4f3b303b6f533b5353414c4720474e495946494e47414d20474e49544e494f502d54484749523b4530354631,
0x3b3b3b3b3b4e3b3b3b3b3b4e4f3b303b6f533b4e4550204b4e492048544957204b434f4c3b4630354631,
0x3b3b3b3b3b4e3b3b3b3b3b4e4f3b303b6f533b59454b2048544957204b434f4c204445534f4c433b3031354631,
0x3b3b3b3b3b4e3b3b3b3b3b4e4f3b303b6f533b59454b3b3131354631,
0x3b3b3b3b3b4e3b3b3b3b3b4e4f3b303b6f533b4b434f4c3b3231354631,
0x3b3b3b3b3b4e3b3b3b3b3b4e4f3b303b6f533b4b434f4c204e45504f3b3331354631,
0x3b3b3b3b3b4e3b3b3b3b3b4e4f3b303b6f533b4c4c45423b3431354631,
0x3b3b3b3b3b4e3b3b3b3b3b4e4f3b303b6f533b454b4f525453204e4f4954414c4c45434e41432048544957204c4c45423b3531354631,
0x3b3b3b3b3b4e3b3b3b3b3b4e4f3b303b6f533b4b52414d4b4f4f423b3631354631,
0x3b3b3b3b3b4e3b3b3b3b3b4e4f3b303b6f533b4c4f424d5953204b4e494c3b3731354631,
0x3b3b3b3b3b4e3b3b3b3b3b4e4f3b303b6f533b4e4f54545542204f494441523b3831354631,
0x3b3b3b3b3b4e3b3b3b3b3b4e4f3b303b6f533b45564f424120574f5252412053445241575446454c2048544957204b4341423b3931354631,
0x3b3b3b3b3b4e3b3b3b3b3b4e4f3b303b6f533b45564f424120574f5252412053445241575446454c204854495720444e453b4131354631,
0x3b3b3b3b3b4e3b3b3b3b3b4e4f3b303b6f533b45564f424120574f525241205448474952205446454c2048544957204b52414d204e4f4954414d414c4358452048544957204e4f3b4231354631,
0x3b3b3b3b3b4e3b3b3b3b3b4e4f3b303b6f533b45564f424120574f52524120534452415754484749522048544957204e4f4f533b4331354631,
0x3b3b3b3b3b4e3b3b3b3b3b4e4f3b303b6f533b45564f424120574f5252412053445241575055204854495720504f543b4431354631,
0x3b3b3b3b3b4e3b3b3b3b3b4e4f3b303b6f533b4c4f424d5953204e45455448474945205245444e5520454e4f204f4e3b4531354631,
0x3b3b3b3b3b4e3b3b3b3b3b4e4f3b303b6f533b4e45542050414359454b3b4631354631,
0x3b3b3b3b3b4e3b3b3b3b3b4e4f3b303b6f533b5352455454454c204c415449504143204e4954414c20524f46204c4f424d5953205455504e493b3032354631,
0x3b3b3b3b3b4e3b3b3b3b3b4e4f3b303b6f533b5352455454454c204c4c414d53204e4954414c20524f46204c4f424d5953205455504e493b3132354631,
0x3b3b3b3b3b4e3b3b3b3b3b4e4f3b303b6f533b535245424d554e20524f46204c4f424d5953205455504e493b3232354631,
0x3b3b3b3b3b4e3b3b3b3b3b4e4f3b303b6f533b534c4f424d595320524f46204c4f424d5953205455504e493b3332354631,
0x3b3b3b3b3b4e3b3b3b3b3b4e4f3b303b6f533b5352455454454c204e4954414c20524f46204c4f424d5953205455504e493b3432354631,
0x3b3b3b3b3b4e3b3b3b3b3b4e4f3b303b6f533b455249463b3532354631,
0x3b3b3b3b3b4e3b3b3b3b3b4e4f3b303b6f533b4843524f54204349525443454c453b3632354631,
0x3b3b3b3b3b4e3b3b3b3b3b4e4f3b303b6f533b48434e4552573b3732354631,
0x3b3b3b3b3b4e3b3b3b3b3b4e4f3b303b6f533b52454d4d41483b3832354631,
0x3b3b3b3b3b4e3b3b3b3b3b4e4f3b303b6f533b544c4f4220444e412054554e3b3932354631,
0x3b3b3b3b3b4e3b3b3b3b3b4e4f3b303b6f533b4f48434f483b4132354631,
0x3b3b3b3b3b4e3b3b3b3b3b4e4f3b303b6f533b4c4f545349503b4232354631,
0x3b3b3b3b3b4e3b3b3b3b3b4e4f3b303b6f533b45504f43534f5243494d3b4332354631,
0x3b3b3b3b3b4e3b3b3b3b3b4e4f3b303b6f533b45504f4353454c45543b4432354631,
0x3b3b3b3b3b4e3b3b3b3b3b4e4f3b303b6f533b4c4c4142204c4154535952433b4532354631,
0x3b3b3b3b3b4e3b3b3b3b3b4e4f3b303b6f533b544f4420454c4444494d20485449572052415453204445544e494f50205849533b4632354631,
0x3b3b3b3b3b4e3b3b3b3b3b4e4f3b303b6f533b52454e4e4947454220524f46204c4f424d5953204553454e4150414a3b3033354631,
0x3b3b3b3b3b4e3b3b3b3b3b4e4f3b303b6f533b4d454c424d4520544e45444952543b3133354631,
0x3b3b3b3b3b4e3b3b3b3b3b4e4f3b303b6f533b4e4f5454554220455241555153204b43414c423b3233354631,
0x3b3b3b3b3b4e3b3b3b3b3b4e4f3b303b6f533b4e4f54545542204552415551532045544948573b3333354631,
0x3b3b3b3b3b4e3b3b3b3b3b4e4f3b303b6f533b454c435249432044455220454752414c3b3433354631,
0x3b3b3b3b3b4e3b3b3b3b3b4e4f3b303b6f533b454c435249432045554c4220454752414c3b3533354631,
0x3b3b3b3b3b4e3b3b3b3b3b4e4f3b303b6f533b444e4f4d4149442045474e41524f20454752414c3b3633354631,
0x3b3b3b3b3b4e3b3b3b3b3b4e4f3b303b6f533b444e4f4d4149442045554c4220454752414c3b3733354631,
0x3b3b3b3b3b4e3b3b3b3b3b4e4f3b303b6f533b444e4f4d4149442045474e41524f204c4c414d533b3833354631,
0x3b3b3b3b3b4e3b3b3b3b3b4e4f3b303b6f533b444e4f4d4149442045554c42204c4c414d533b3933354631,
0x3b3b3b3b3b4e3b3b3b3b3b4e4f3b303b6f533b454c474e414952542044455220474e49544e494f502d50553b4133354631,
0x3b3b3b3b3b4e3b3b3b3b3b4e4f3b303b6f533b454c474e414952542044455220474e49544e494f502d4e574f443b4233354631,
0x3b3b3b3b3b4e3b3b3b3b3b4e4f3b303b6f533b454c474e4149525420444552204c4c414d5320474e49544e494f502d50553b4333354631,
0x3b3b3b3b3b4e3b3b3b3b3b4e4f3b303b6f533b454c474e4149525420444552204c4c414d5320474e49544e494f502d4e574f443b4433354631,
0x3b3b3b3b3b4e3b3b3b3b3b4e4f3b303b6f533b454c43524943204554494857204445574f44414853205448474952205245574f4c3b4533354631,
0x3b3b3b3b3b4e3b3b3b3b3b4e4f3b303b6f533b454c43524943204554494857204445574f444148532054484749522052455050553b4633354631,
0x3b3b3b3b3b4e3b3b3b3b3b4e4f3b303b6f533b45454d4d4f502053534f52432044454c435249433b3034354631,
0x3b3b3b3b3b4e3b3b3b3b3b4e4f3b303b6f533b574f4c454220454c435249432d464c414820485449572045454d4d4f502053534f52433b3134354631,
0x3b3b3b3b3b4e3b3b3b3b3b4e4f3b303b6f533b45454d4d4f502053534f52433b3234354631,
0x3b3b3b3b3b4e3b3b3b3b3b4e4f3b303b6f533b53544f44204545524854204854495720454c43524943494d4553205446454c2044454843544f4e3b3334354631,
0x3b3b3b3b3b4e3b3b3b3b3b4e4f3b303b6f533b53544f44204545524854204854495720454c43524943494d45532054484749522044454843544f4e3b3434354631,
0x3b3b3b3b3b4e3b3b3b3b3b4e4f3b303b6f533b5245545041484320534b52414d20524f46204c4f424d59533b3534354631,
0x3b3b3b3b3b4e3b3b3b3b3b4e4f3b303b6f533b53534f5243204e4954414c2045544948573b3634354631,
0x3b3b3b3b3b4e3b3b3b3b3b4e4f3b303b6f533b53534f5243204e4954414c2059564145483b3734354631,
0x3b3b3b3b3b4e3b3b3b3b3b4e4f3b303b6f533b53534f5243204349544c45433b3834354631,
0x3b3b3b3b3b4e3b3b3b3b3b4e4f3b303b6f533b4c4f424d5953204d4f3b3934354631,
0x3b3b3b3b3b4e3b3b3b3b3b4e4f3b303b6f533b454341455020464f2045564f443b4134354631,
0x3b3b3b3b3b4e3b3b3b3b3b4e4f3b303b6f533b414241414b3b4234354631,
0x3b3b3b3b3b4e3b3b3b3b3b4e4f3b303b6f533b455551534f4d3b4334354631,
0x3b3b3b3b3b4e3b3b3b3b3b4e4f3b303b6f533b4555474f47414e59533b4434354631,
0x3b3b3b3b3b4e3b3b3b3b3b4e4f3b303b6f533b534548434e41524220454e494e2048544957204841524f4e454d3b4534354631,
0x3b3b3b3b3b4e3b3b3b3b3b4e4f3b303b6f533b4149454947594820464f204c574f423b4634354631,
0x3b3b3b3b3b4e3b3b3b3b3b4e4f3b303b6f533b4b434f4c434f20454e4f2045434146204b434f4c433b3035354631,
0x3b3b3b3b3b4e3b3b3b3b3b4e4f3b303b6f533b4b434f4c434f204f57542045434146204b434f4c433b3135354631,
0x3b3b3b3b3b4e3b3b3b3b3b4e4f3b303b6f533b4b434f4c434f2045455248542045434146204b434f4c433b3235354631,
0x3b3b3b3b3b4e3b3b3b3b3b4e4f3b303b6f533b4b434f4c434f2052554f462045434146204b434f4c433b3335354631,
0x3b3b3b3b3b4e3b3b3b3b3b4e4f3b303b6f533b4b434f4c434f20455649462045434146204b434f4c433b3435354631,
0x3b3b3b3b3b4e3b3b3b3b3b4e4f3b303b6f533b4b434f4c434f205849532045434146204b434f4c433b3535354631,
0x3b3b3b3b3b4e3b3b3b3b3b4e4f3b303b6f533b4b434f4c434f204e455645532045434146204b434f4c433b3635354631,
0x3b3b3b3b3b4e3b3b3b3b3b4e4f3b303b6f533b4b434f4c434f2054484749452045434146204b434f4c433b3735354631,
0x3b3b3b3b3b4e3b3b3b3b3b4e4f3b303b6f533b4b434f4c434f20454e494e2045434146204b434f4c433b3835354631,
0x3b3b3b3b3b4e3b3b3b3b3b4e4f3b303b6f533b4b434f4c434f204e45542045434146204b434f4c433b3935354631,
0x3b3b3b3b3b4e3b3b3b3b3b4e4f3b303b6f533b4b434f4c434f204e4556454c452045434146204b434f4c433b4135354631,
0x3b3b3b3b3b4e3b3b3b3b3b4e4f3b303b6f533b4b434f4c434f2045564c4557542045434146204b434f4c433b4235354631,
0x3b3b3b3b3b4e3b3b3b3b3b4e4f3b303b6f533b5954524948542d454e4f2045434146204b434f4c433b4335354631,
0x3b3b3b3b3b4e3b3b3b3b3b4e4f3b303b6f533b5954524948542d4f57542045434146204b434f4c433b4435354631,
0x3b3b3b3b3b4e3b3b3b3b3b4e4f3b303b6f533b5954524948542d45455248542045434146204b434f4c433b4535354631,
0x3b3b3b3b3b4e3b3b3b3b3b4e4f3b303b6f533b5954524948542d52554f462045434146204b434f4c433b4635354631,
0x3b3b3b3b3b4e3b3b3b3b3b4e4f3b303b6f533b5954524948542d455649462045434146204b434f4c433b3036354631,
0x3b3b3b3b3b4e3b3b3b3b3b4e4f3b303b6f533b5954524948542d5849532045434146204b434f4c433b3136354631,
0x3b3b3b3b3b4e3b3b3b3b3b4e4f3b303b6f533b5954524948542d4e455645532045434146204b434f4c433b3236354631,
0x3b3b3b3b3b4e3b3b3b3b3b4e4f3b303b6f533b5954524948542d54484749452045434146204b434f4c433b3336354631,
0x3b3b3b3b3b4e3b3b3b3b3b4e4f3b303b6f533b5954524948542d454e494e2045434146204b434f4c433b3436354631,
0x3b3b3b3b3b4e3b3b3b3b3b4e4f3b303b6f533b5954524948542d4e45542045434146204b434f4c433b3536354631,
0x3b3b3b3b3b4e3b3b3b3b3b4e4f3b303b6f533b5954524948542d4e4556454c452045434146204b434f4c433b3636354631,
0x3b3b3b3b3b4e3b3b3b3b3b4e4f3b303b6f533b5954524948542d45564c4557542045434146204b434f4c433b3736354631,
0x3b3b3b3b3b4e3b3b3b3b3b4e4f3b303b6f533b52454b414550532054484749523b3836354631,
0x3b3b3b3b3b4e3b3b3b3b3b4e4f3b303b6f533b4556415720444e554f5320454e4f20485449572052454b414550532054484749523b3936354631,
0x3b3b3b3b3b4e3b3b3b3b3b4e4f3b303b6f533b534556415720444e554f5320454552485420485449572052454b414550532054484749523b4136354631,
0x3b3b3b3b3b4e3b3b3b3b3b4e4f3b303b6f533b4e524f484c4c55423b4236354631,
0x3b3b3b3b3b4e3b3b3b3b3b4e4f3b303b6f533b534556415720444e554f532048544957204e524f484c4c55423b4336354631,
0x3b3b3b3b3b4e3b3b3b3b3b4e4f3b303b6f533b4c4c454220474e49474e49523b4436354631,
0x3b3b3b3b3b4e3b3b3b3b3b4e4f3b303b6f533b4b4f4f423b4536354631,
0x3b3b3b3b3b4e3b3b3b3b3b4e4f3b303b6f533b454c444e41433b4636354631,
0x3b3b3b3b3b4e3b3b3b3b3b4e4f3b303b6f533b4b434f4c432045434549504c45544e414d3b3037354631,
0x3b3b3b3b3b4e3b3b3b3b3b4e4f3b303b6f533b53454e4f4253534f524320444e41204c4c554b53204b43414c423b3137354631,
0x3b3b3b3b3b4e3b3b3b3b3b4e4f3b303b6f533b594341524950204f4e3b3237354631,
0x3b3b3b3b3b4e3b3b3b3b3b4e4f3b303b6f533b454c4f483b3337354631,
0x3b3b3b3b3b4e3b3b3b3b3b4e4f3b303b6f533b474e495441544956454c2054495553205353454e49535542204e49204e414d3b3437354631,
0x3b3b3b3b3b4e3b3b3b3b3b4e4f3b303b6f533b59505320524f20485455454c533b3537354631,
0x3b3b3b3b3b4e3b3b3b3b3b4e4f3b303b6f533b53455353414c474e5553204b5241443b3637354631,
0x3b3b3b3b3b4e3b3b3b3b3b4e4f3b303b6f533b5245444950533b3737354631,
0x3b3b3b3b3b4e3b3b3b3b3b4e4f3b303b6f533b424557205245444950533b3837354631,
0x3b3b3b3b3b4e3b3b3b3b3b4e4f3b303b6f533b4b43495453594f4a3b3937354631,
0x3b3b3b3b3b4e3b3b3b3b3b4e4f3b303b6f533b474e49434e4144204e414d3b4137354631,
0x3b3b3b3b3b4e3b3b3b3b3b4e4f3b303b6f533b524556494543455220454e4f4850454c455420444e4148205446454c3b4237354631,
0x3b3b3b3b3b4e3b3b3b3b3b4e4f3b303b6f533b45474150204854495720524556494543455220454e4f4850454c45543b4337354631,
0x3b3b3b3b3b4e3b3b3b3b3b4e4f3b303b6f533b524556494543455220454e4f4850454c455420444e41482054484749523b4437354631,
0x3b3b3b3b3b4e3b3b3b3b3b4e4f3b303b6f533b454e4f4850454c455420454e4f544843554f542045544948573b4537354631,
0x3b3b3b3b3b4e3b3b3b3b3b4e4f3b303b6f533b454e4f4850454c455420454e4f544843554f54204b43414c423b4637354631,
0x3b3b3b3b3b4e3b3b3b3b3b4e4f3b303b6f533b4d45444f4d20464f20504f54204e4f20454e4f4850454c45543b3038354631,
0x3b3b3b3b3b4e3b3b3b3b3b4e4f3b303b6f533b454e4f485020454c49424f4d204c4c4548534d414c433b3138354631,
0x3b3b3b3b3b4e3b3b3b3b3b4e4f3b303b6f533b45504f4c45564e4520464f204b4341423b3238354631,
0x3b3b3b3b3b4e3b3b3b3b3b4e4f3b303b6f533b45504f4c45564e45204445504d4154533b3338354631,
0x3b3b3b3b3b4e3b3b3b3b3b4e4f3b303b6f533b474e494e544847494c20485449572045504f4c45564e453b3438354631,
0x3b3b3b3b3b4e3b3b3b3b3b4e4f3b303b6f533b45504f4c45564e4520474e49594c463b3538354631,
0x3b3b3b3b3b4e3b3b3b3b3b4e4f3b303b6f533b45504f4c45564e45204445504d415453205245564f204e45503b3638354631,
0x3b3b3b3b3b4e3b3b3b3b3b4e4f3b303b6f533b5350494c4352455041502044454b4e494c3b3738354631,
0x3b3b3b3b3b4e3b3b3b3b3b4e4f3b303b6f533b4e495048535550204b43414c423b3838354631,
0x3b3b3b3b3b4e3b3b3b3b3b4e4f3b303b6f533b4c49434e4550205446454c205245574f4c3b3938354631,
0x3b3b3b3b3b4e3b3b3b3b3b4e4f3b303b6f533b4e455020544e494f504c4c4142205446454c205245574f4c3b4138354631,
0x3b3b3b3b3b4e3b3b3b3b3b4e4f3b303b6f533b4e4550204e4941544e554f46205446454c205245574f4c3b4238354631,
0x3b3b3b3b3b4e3b3b3b3b3b4e4f3b303b6f533b4853555242544e494150205446454c205245574f4c3b4338354631,
0x3b3b3b3b3b4e3b3b3b3b3b4e4f3b303b6f533b4e4f59415243205446454c205245574f4c3b4438354631,
0x3b3b3b3b3b4e3b3b3b3b3b4e4f3b303b6f533b444e414820474e4954495257205446454c3b4538354631,
0x3b3b3b3b3b4e3b3b3b3b3b4e4f3b303b6f533b4e47495320444e4148204b4f2044454e5255543b4638354631,
0x3b3b3b3b3b4e3b3b3b3b3b4e4f3b303b6f533b444559414c505320535245474e4946204854495720444e4148204445534941523b3039354631]

/-- src/u5e/props/UnicodeData.txt lines 28929-29184. -/
def rawUcd113 : List Nat := [
0x3b3b3b3b3b4e3b3b3b3b3b4e4f3b303b6f533b444559414c505320535245474e4946204854495720444e4148204445534941522044455352455645523b3139354631,
0x3b3b3b3b3b4e3b3b3b3b3b4e4f3b303b6f533b4e4749532050552053424d5548542044455352455645523b3239354631,
0x3b3b3b3b3b4e3b3b3b3b3b4e4f3b303b6f533b4e474953204e574f442053424d5548542044455352455645523b3339354631,
0x3b3b3b3b3b4e3b3b3b3b3b4e4f3b303b6f533b444e41482059524f544349562044455352455645523b3439354631,
0x3b3b3b3b3b4e3b3b3b3b3b4e4f3b303b6f533b4445444e45545845205245474e494620454c4444494d204854495720444e41482044455352455645523b3539354631,
0x3b3b3b3b3b4e3b3b3b3b3b4e4f3b303b6f533b535245474e494620474e495220444e4120454c4444494d204e4545575445422054524150204854495720444e4148204445534941523b3639354631,
0x3b3b3b3b3b4e3b3b3b3b3b4e4f3b303b6f533b5845444e4920444e4148205446454c20474e49544e494f50204e574f442045544948573b3739354631,
0x3b3b3b3b3b4e3b3b3b3b3b4e4f3b303b6f533b5845444e4920474e49544e494f50205446454c2045544948572053594157454449533b3839354631,
0x3b3b3b3b3b4e3b3b3b3b3b4e4f3b303b6f533b5845444e4920474e49544e494f502054484749522045544948572053594157454449533b3939354631,
0x3b3b3b3b3b4e3b3b3b3b3b4e4f3b303b6f533b5845444e4920474e49544e494f50205446454c204b43414c422053594157454449533b4139354631,
0x3b3b3b3b3b4e3b3b3b3b3b4e4f3b303b6f533b5845444e4920474e49544e494f50205448474952204b43414c422053594157454449533b4239354631,
0x3b3b3b3b3b4e3b3b3b3b3b4e4f3b303b6f533b5845444e4920444e41484b43414220474e49544e494f50205446454c204b43414c423b4339354631,
0x3b3b3b3b3b4e3b3b3b3b3b4e4f3b303b6f533b5845444e4920444e41484b43414220474e49544e494f50205448474952204b43414c423b4439354631,
0x3b3b3b3b3b4e3b3b3b3b3b4e4f3b303b6f533b5845444e4920474e49544e494f502050552045544948572053594157454449533b4539354631,
0x3b3b3b3b3b4e3b3b3b3b3b4e4f3b303b6f533b5845444e4920474e49544e494f50204e574f442045544948572053594157454449533b4639354631,
0x3b3b3b3b3b4e3b3b3b3b3b4e4f3b303b6f533b5845444e4920474e49544e494f50205055204b43414c422053594157454449533b3041354631,
0x3b3b3b3b3b4e3b3b3b3b3b4e4f3b303b6f533b5845444e4920474e49544e494f50204e574f44204b43414c422053594157454449533b3141354631,
0x3b3b3b3b3b4e3b3b3b3b3b4e4f3b303b6f533b5845444e4920444e41484b43414220474e49544e494f50205055204b43414c423b3241354631,
0x3b3b3b3b3b4e3b3b3b3b3b4e4f3b303b6f533b5845444e4920444e41484b43414220474e49544e494f50204e574f44204b43414c423b3341354631,
0x3b3b3b3b3b4e3b3b3b3b3b4e4f3b303b6f533b5452414548204b43414c423b3441354631,
0x3b3b3b3b3b4e3b3b3b3b3b4e4f3b303b6f533b52455455504d4f4320504f544b5345443b3541354631,
0x3b3b3b3b3b4e3b3b3b3b3b4e4f3b303b6f533b4553554f4d20444e41204452414f4259454b3b3641354631,
0x3b3b3b3b3b4e3b3b3b3b3b4e4f3b303b6f533b5352455455504d4f432044454b524f5754454e2045455248543b3741354631,
0x3b3b3b3b3b4e3b3b3b3b3b4e4f3b303b6f533b5245544e4952503b3841354631,
0x3b3b3b3b3b4e3b3b3b3b3b4e4f3b303b6f533b524f54414c55434c41432054454b434f503b3941354631,
0x3b3b3b3b3b4e3b3b3b3b3b4e4f3b303b6f533b4b534944205950504f4c46204c4c4548532044524148204b43414c423b4141354631,
0x3b3b3b3b3b4e3b3b3b3b3b4e4f3b303b6f533b4b534944205950504f4c46204c4c45485320445241482045544948573b4241354631,
0x3b3b3b3b3b4e3b3b3b3b3b4e4f3b303b6f533b4b534944205950504f4c46204c4c4548532054464f533b4341354631,
0x3b3b3b3b3b4e3b3b3b3b3b4e4f3b303b6f533b45474449525452414320455041543b4441354631,
0x3b3b3b3b3b4e3b3b3b3b3b4e4f3b303b6f533b4452414f4259454b2044455249573b4541354631,
0x3b3b3b3b3b4e3b3b3b3b3b4e4f3b303b6f533b4553554f4d204e4f5454554220454e4f3b4641354631,
0x3b3b3b3b3b4e3b3b3b3b3b4e4f3b303b6f533b4553554f4d204e4f54545542204f57543b3042354631,
0x3b3b3b3b3b4e3b3b3b3b3b4e4f3b303b6f533b4553554f4d204e4f545455422045455248543b3142354631,
0x3b3b3b3b3b4e3b3b3b3b3b4e4f3b303b6f533b4c4c41424b434152543b3242354631,
0x3b3b3b3b3b4e3b3b3b3b3b4e4f3b303b6f533b52455455504d4f43204c414e4f5352455020444c4f3b3342354631,
0x3b3b3b3b3b4e3b3b3b3b3b4e4f3b303b6f533b4b53494420445241483b3442354631,
0x3b3b3b3b3b4e3b3b3b3b3b4e4f3b303b6f533b4e45455243533b3542354631,
0x3b3b3b3b3b4e3b3b3b3b3b4e4f3b303b6f533b4e4f4349205245544e4952503b3642354631,
0x3b3b3b3b3b4e3b3b3b3b3b4e4f3b303b6f533b4e4f4349205841463b3742354631,
0x3b3b3b3b3b4e3b3b3b3b3b4e4f3b303b6f533b4e4f43492043534944204c41434954504f3b3842354631,
0x3b3b3b3b3b4e3b3b3b3b3b4e4f3b303b6f533b54584554204854495720544e454d55434f443b3942354631,
0x3b3b3b3b3b4e3b3b3b3b3b4e4f3b303b6f533b4552555443495020444e412054584554204854495720544e454d55434f443b4142354631,
0x3b3b3b3b3b4e3b3b3b3b3b4e4f3b303b6f533b45525554434950204854495720544e454d55434f443b4242354631,
0x3b3b3b3b3b4e3b3b3b3b3b4e4f3b303b6f533b45525554434950204854495720454d4152463b4342354631,
0x3b3b3b3b3b4e3b3b3b3b3b4e4f3b303b6f533b53454c4954204854495720454d4152463b4442354631,
0x3b3b3b3b3b4e3b3b3b3b3b4e4f3b303b6f533b58204e41204854495720454d4152463b4542354631,
0x3b3b3b3b3b4e3b3b3b3b3b4e4f3b303b6f533b5245444c4f46204b43414c423b4642354631,
0x3b3b3b3b3b4e3b3b3b3b3b4e4f3b303b6f533b5245444c4f463b3043354631,
0x3b3b3b3b3b4e3b3b3b3b3b4e4f3b303b6f533b5245444c4f46204e45504f3b3143354631,
0x3b3b3b3b3b4e3b3b3b3b3b4e4f3b303b6f533b5352454449564944205845444e4920445241433b3243354631,
0x3b3b3b3b3b4e3b3b3b3b3b4e4f3b303b6f533b584f4220454c494620445241433b3343354631,
0x3b3b3b3b3b4e3b3b3b3b3b4e4f3b303b6f533b54454e4942414320454c49463b3443354631,
0x3b3b3b3b3b4e3b3b3b3b3b4e4f3b303b6f533b45544f4e205954504d453b3543354631,
0x3b3b3b3b3b4e3b3b3b3b3b4e4f3b303b6f533b454741502045544f4e205954504d453b3643354631,
0x3b3b3b3b3b4e3b3b3b3b3b4e4f3b303b6f533b4441502045544f4e205954504d453b3743354631,
0x3b3b3b3b3b4e3b3b3b3b3b4e4f3b303b6f533b45544f4e3b3843354631,
0x3b3b3b3b3b4e3b3b3b3b3b4e4f3b303b6f533b454741502045544f4e3b3943354631,
0x3b3b3b3b3b4e3b3b3b3b3b4e4f3b303b6f533b4441502045544f4e3b4143354631,
0x3b3b3b3b3b4e3b3b3b3b3b4e4f3b303b6f533b544e454d55434f44205954504d453b4243354631,
0x3b3b3b3b3b4e3b3b3b3b3b4e4f3b303b6f533b45474150205954504d453b4343354631,
0x3b3b3b3b3b4e3b3b3b3b3b4e4f3b303b6f533b5345474150205954504d453b4443354631,
0x3b3b3b3b3b4e3b3b3b3b3b4e4f3b303b6f533b544e454d55434f443b4543354631,
0x3b3b3b3b3b4e3b3b3b3b3b4e4f3b303b6f533b454741503b4643354631,
0x3b3b3b3b3b4e3b3b3b3b3b4e4f3b303b6f533b53454741503b3044354631,
0x3b3b3b3b3b4e3b3b3b3b3b4e4f3b303b6f533b54454b53414245545341573b3144354631,
0x3b3b3b3b3b4e3b3b3b3b3b4e4f3b303b6f533b4441502045544f4e204c41524950533b3244354631,
0x3b3b3b3b3b4e3b3b3b3b3b4e4f3b303b6f533b444150205241444e454c4143204c41524950533b3344354631,
0x3b3b3b3b3b4e3b3b3b3b3b4e4f3b303b6f533b574f444e495720504f544b5345443b3444354631,
0x3b3b3b3b3b4e3b3b3b3b3b4e4f3b303b6f533b455a494d494e494d3b3544354631,
0x3b3b3b3b3b4e3b3b3b3b3b4e4f3b303b6f533b455a494d4958414d3b3644354631,
0x3b3b3b3b3b4e3b3b3b3b3b4e4f3b303b6f533b50414c5245564f3b3744354631,
0x3b3b3b3b3b4e3b3b3b3b3b4e4f3b303b6f533b53574f52524120454c43524943494d4553205446454c20444e4120544847495220455349574b434f4c433b3844354631,
0x3b3b3b3b3b4e3b3b3b3b3b4e4f3b303b6f533b58204e4f4954414c4c45434e41433b3944354631,
0x3b3b3b3b3b4e3b3b3b3b3b4e4f3b303b6f533b4c4f424d595320455a495320544e4f46204553414552434e493b4144354631,
0x3b3b3b3b3b4e3b3b3b3b3b4e4f3b303b6f533b4c4f424d595320455a495320544e4f462045534145524345443b4244354631,
0x3b3b3b3b3b4e3b3b3b3b3b4e4f3b303b6f533b4e4f4953534552504d4f433b4344354631,
0x3b3b3b3b3b4e3b3b3b3b3b4e4f3b303b6f533b59454b20444c4f3b4444354631,
0x3b3b3b3b3b4e3b3b3b3b3b4e4f3b303b6f533b52455041505357454e2050552d44454c4c4f523b4544354631,
0x3b3b3b3b3b4e3b3b3b3b3b4e4f3b303b6f533b545845542044454c43524943204854495720454741503b4644354631,
0x3b3b3b3b3b4e3b3b3b3b3b4e4f3b303b6f533b5452414843204b434f54533b3045354631,
0x3b3b3b3b3b4e3b3b3b3b3b4e4f3b303b6f533b4546494e4b205245474741443b3145354631,
0x3b3b3b3b3b4e3b3b3b3b3b4e4f3b303b6f533b5350494c3b3245354631,
0x3b3b3b3b3b4e3b3b3b3b3b4e4f3b303b6f533b45545445554f484c4953204e49204441454820474e494b414550533b3345354631,
0x3b3b3b3b3b4e3b3b3b3b3b4e4f3b303b6f533b45564f424120535941522045455248543b3445354631,
0x3b3b3b3b3b4e3b3b3b3b3b4e4f3b303b6f533b574f4c454220535941522045455248543b3545354631,
0x3b3b3b3b3b4e3b3b3b3b3b4e4f3b303b6f533b5446454c20535941522045455248543b3645354631,
0x3b3b3b3b3b4e3b3b3b3b3b4e4f3b303b6f533b544847495220535941522045455248543b3745354631,
0x3b3b3b3b3b4e3b3b3b3b3b4e4f3b303b6f533b454c4242554220484345455053205446454c3b3845354631,
0x3b3b3b3b3b4e3b3b3b3b3b4e4f3b303b6f533b454c42425542204843454550532054484749523b3945354631,
0x3b3b3b3b3b4e3b3b3b3b3b4e4f3b303b6f533b53454c4242554220484345455053204f57543b4145354631,
0x3b3b3b3b3b4e3b3b3b3b3b4e4f3b303b6f533b53454c42425542204843454550532045455248543b4245354631,
0x3b3b3b3b3b4e3b3b3b3b3b4e4f3b303b6f533b454c4242554220544847554f4854205446454c3b4345354631,
0x3b3b3b3b3b4e3b3b3b3b3b4e4f3b303b6f533b454c4242554220544847554f48542054484749523b4445354631,
0x3b3b3b3b3b4e3b3b3b3b3b4e4f3b303b6f533b454c42425542205245474e41205446454c3b4545354631,
0x3b3b3b3b3b4e3b3b3b3b3b4e4f3b303b6f533b454c42425542205245474e412054484749523b4645354631,
0x3b3b3b3b3b4e3b3b3b3b3b4e4f3b303b6f533b454c4242554220444f4f4d3b3046354631,
0x3b3b3b3b3b4e3b3b3b3b3b4e4f3b303b6f533b454c4242554220444f4f4d20474e494e544847494c3b3146354631,
0x3b3b3b3b3b4e3b3b3b3b3b4e4f3b303b6f533b444f4f4d20474e494e544847494c3b3246354631,
0x3b3b3b3b3b4e3b3b3b3b3b4e4f3b303b6f533b544f4c4c4142204854495720584f4220544f4c4c41423b3346354631,
0x3b3b3b3b3b4e3b3b3b3b3b4e4f3b303b6f533b582054504952435320544f4c4c41423b3446354631,
0x3b3b3b3b3b4e3b3b3b3b3b4e4f3b303b6f533b5820545049524353204854495720584f4220544f4c4c41423b3546354631,
0x3b3b3b3b3b4e3b3b3b3b3b4e4f3b303b6f533b582054504952435320444c4f4220544f4c4c41423b3646354631,
0x3b3b3b3b3b4e3b3b3b3b3b4e4f3b303b6f533b582054504952435320444c4f42204854495720584f4220544f4c4c41423b3746354631,
0x3b3b3b3b3b4e3b3b3b3b3b4e4f3b303b6f533b4b52414d204b4345484320544847494c3b3846354631,
0x3b3b3b3b3b4e3b3b3b3b3b4e4f3b303b6f533b4b4345484320444c4f42204854495720584f4220544f4c4c41423b3946354631,
0x3b3b3b3b3b4e3b3b3b3b3b4e4f3b303b6f533b50414d20444c524f573b4146354631,
0x3b3b3b3b3b4e3b3b3b3b3b4e4f3b303b6f533b494a554620544e554f4d3b4246354631,
0x3b3b3b3b3b4e3b3b3b3b3b4e4f3b303b6f533b5245574f54204f594b4f543b4346354631,
0x3b3b3b3b3b4e3b3b3b3b3b4e4f3b303b6f533b5954524542494c20464f204555544154533b4446354631,
0x3b3b3b3b3b4e3b3b3b3b3b4e4f3b303b6f533b4e4150414a20464f2045545445554f484c49533b4546354631,
0x3b3b3b3b3b4e3b3b3b3b3b4e4f3b303b6f533b4941594f4d3b4646354631,
0x3b3b3b3b3b4e3b3b3b3b3b4e4f3b303b6f533b4543414620474e494e4e4952473b3030364631,
0x3b3b3b3b3b4e3b3b3b3b3b4e4f3b303b6f533b5345594520474e494c494d532048544957204543414620474e494e4e4952473b3130364631,
0x3b3b3b3b3b4e3b3b3b3b3b4e4f3b303b6f533b594f4a20464f205352414554204854495720454341463b3230364631,
0x3b3b3b3b3b4e3b3b3b3b3b4e4f3b303b6f533b4854554f4d204e45504f2048544957204543414620474e494c494d533b3330364631,
0x3b3b3b3b3b4e3b3b3b3b3b4e4f3b303b6f533b5345594520474e494c494d5320444e41204854554f4d204e45504f2048544957204543414620474e494c494d533b3430364631,
0x3b3b3b3b3b4e3b3b3b3b3b4e4f3b303b6f533b544145575320444c4f4320444e41204854554f4d204e45504f2048544957204543414620474e494c494d533b3530364631,
0x3b3b3b3b3b4e3b3b3b3b3b4e4f3b303b6f533b53455945204445534f4c432d594c544847495420444e41204854554f4d204e45504f2048544957204543414620474e494c494d533b3630364631,
0x3b3b3b3b3b4e3b3b3b3b3b4e4f3b303b6f533b4f4c41482048544957204543414620474e494c494d533b3730364631,
0x3b3b3b3b3b4e3b3b3b3b3b4e4f3b303b6f533b534e524f482048544957204543414620474e494c494d533b3830364631,
0x3b3b3b3b3b4e3b3b3b3b3b4e4f3b303b6f533b4543414620474e494b4e49573b3930364631,
0x3b3b3b3b3b4e3b3b3b3b3b4e4f3b303b6f533b5345594520474e494c494d532048544957204543414620474e494c494d533b4130364631,
0x3b3b3b3b3b4e3b3b3b3b3b4e4f3b303b6f533b444f4f462053554f4943494c454420474e4952554f56415320454341463b4230364631,
0x3b3b3b3b3b4e3b3b3b3b3b4e4f3b303b6f533b454341462044455645494c45523b4330364631,
0x3b3b3b3b3b4e3b3b3b3b3b4e4f3b303b6f533b53455945204445504148532d54524145482048544957204543414620474e494c494d533b4430364631,
0x3b3b3b3b3b4e3b3b3b3b3b4e4f3b303b6f533b53455353414c474e55532048544957204543414620474e494c494d533b4530364631,
0x3b3b3b3b3b4e3b3b3b3b3b4e4f3b303b6f533b4543414620474e494b52494d533b4630364631,
0x3b3b3b3b3b4e3b3b3b3b3b4e4f3b303b6f533b45434146204c41525455454e3b3031364631,
0x3b3b3b3b3b4e3b3b3b3b3b4e4f3b303b6f533b45434146205353454c4e4f49535345525058453b3131364631,
0x3b3b3b3b3b4e3b3b3b3b3b4e4f3b303b6f533b4543414620444553554d414e553b3231364631,
0x3b3b3b3b3b4e3b3b3b3b3b4e4f3b303b6f533b544145575320444c4f43204854495720454341463b3331364631,
0x3b3b3b3b3b4e3b3b3b3b3b4e4f3b303b6f533b4543414620455649534e45503b3431364631,
0x3b3b3b3b3b4e3b3b3b3b3b4e4f3b303b6f533b454341462044455355464e4f433b3531364631,
0x3b3b3b3b3b4e3b3b3b3b3b4e4f3b303b6f533b45434146204445444e554f464e4f433b3631364631,
0x3b3b3b3b3b4e3b3b3b3b3b4e4f3b303b6f533b4543414620474e495353494b3b3731364631,
0x3b3b3b3b3b4e3b3b3b3b3b4e4f3b303b6f533b5353494b204120474e49574f52485420454341463b3831364631,
0x3b3b3b3b3b4e3b3b3b3b3b4e4f3b303b6f533b5345594520474e494c494d532048544957204543414620474e495353494b3b3931364631,
0x3b3b3b3b3b4e3b3b3b3b3b4e4f3b303b6f533b53455945204445534f4c432048544957204543414620474e495353494b3b4131364631,
0x3b3b3b3b3b4e3b3b3b3b3b4e4f3b303b6f533b4555474e4f542054554f2d4b43555453204854495720454341463b4231364631,
0x3b3b3b3b3b4e3b3b3b3b3b4e4f3b303b6f533b45594520474e494b4e495720444e41204555474e4f542054554f2d4b43555453204854495720454341463b4331364631,
0x3b3b3b3b3b4e3b3b3b3b3b4e4f3b303b6f533b53455945204445534f4c432d594c544847495420444e41204555474e4f542054554f2d4b43555453204854495720454341463b4431364631,
0x3b3b3b3b3b4e3b3b3b3b3b4e4f3b303b6f533b45434146204445544e494f5050415349443b4531364631,
0x3b3b3b3b3b4e3b3b3b3b3b4e4f3b303b6f533b454341462044454952524f573b4631364631,
0x3b3b3b3b3b4e3b3b3b3b3b4e4f3b303b6f533b45434146205952474e413b3032364631,
0x3b3b3b3b3b4e3b3b3b3b3b4e4f3b303b6f533b4543414620474e4954554f503b3132364631,
0x3b3b3b3b3b4e3b3b3b3b3b4e4f3b303b6f533b4543414620474e495952433b3232364631,
0x3b3b3b3b3b4e3b3b3b3b3b4e4f3b303b6f533b4543414620474e4952455645535245503b3332364631,
0x3b3b3b3b3b4e3b3b3b3b3b4e4f3b303b6f533b48504d5549525420464f204b4f4f4c204854495720454341463b3432364631,
0x3b3b3b3b3b4e3b3b3b3b3b4e4f3b303b6f533b454341462044455645494c455220545542204445544e494f5050415349443b3532364631,
0x3b3b3b3b3b4e3b3b3b3b3b4e4f3b303b6f533b4854554f4d204e45504f2048544957204543414620474e494e574f52463b3632364631,
0x3b3b3b3b3b4e3b3b3b3b3b4e4f3b303b6f533b4543414620444548534955474e413b3732364631,
0x3b3b3b3b3b4e3b3b3b3b3b4e4f3b303b6f533b45434146204c5546524145463b3832364631,
0x3b3b3b3b3b4e3b3b3b3b3b4e4f3b303b6f533b454341462059524145573b3932364631,
0x3b3b3b3b3b4e3b3b3b3b3b4e4f3b303b6f533b4543414620595045454c533b4132364631,
0x3b3b3b3b3b4e3b3b3b3b3b4e4f3b303b6f533b454341462044455249543b4232364631,
0x3b3b3b3b3b4e3b3b3b3b3b4e4f3b303b6f533b4543414620474e4943414d4952473b4332364631,
0x3b3b3b3b3b4e3b3b3b3b3b4e4f3b303b6f533b4543414620474e4959524320594c44554f4c3b4432364631,
0x3b3b3b3b3b4e3b3b3b3b3b4e4f3b303b6f533b4854554f4d204e45504f204854495720454341463b4532364631,
0x3b3b3b3b3b4e3b3b3b3b3b4e4f3b303b6f533b45434146204445485355483b4632364631,
0x3b3b3b3b3b4e3b3b3b3b3b4e4f3b303b6f533b544145575320444c4f4320444e41204854554f4d204e45504f204854495720454341463b3033364631,
0x3b3b3b3b3b4e3b3b3b3b3b4e4f3b303b6f533b52414546204e4920474e494d414552435320454341463b3133364631,
0x3b3b3b3b3b4e3b3b3b3b3b4e4f3b303b6f533b454341462044454853494e4f5453413b3233364631,
0x3b3b3b3b3b4e3b3b3b3b3b4e4f3b303b6f533b454341462044454853554c463b3333364631,
0x3b3b3b3b3b4e3b3b3b3b3b4e4f3b303b6f533b4543414620474e495045454c533b3433364631,
0x3b3b3b3b3b4e3b3b3b3b3b4e4f3b303b6f533b4543414620595a5a49443b3533364631,
0x3b3b3b3b3b4e3b3b3b3b3b4e4f3b303b6f533b4854554f4d2054554f4854495720454341463b3633364631,
0x3b3b3b3b3b4e3b3b3b3b3b4e4f3b303b6f533b4b53414d204c41434944454d204854495720454341463b3733364631,
0x3b3b3b3b3b4e3b3b3b3b3b4e4f3b303b6f533b5345594520474e494c494d53204854495720454341462054414320474e494e4e4952473b3833364631,
0x3b3b3b3b3b4e3b3b3b3b3b4e4f3b303b6f533b594f4a20464f20535241455420485449572045434146205441433b3933364631,
0x3b3b3b3b3b4e3b3b3b3b3b4e4f3b303b6f533b4854554f4d204e45504f204854495720454341462054414320474e494c494d533b4133364631,
0x3b3b3b3b3b4e3b3b3b3b3b4e4f3b303b6f533b53455945204445504148532d5452414548204854495720454341462054414320474e494c494d533b4233364631,
0x3b3b3b3b3b4e3b3b3b3b3b4e4f3b303b6f533b454c494d532059525720485449572045434146205441433b4333364631,
0x3b3b3b3b3b4e3b3b3b3b3b4e4f3b303b6f533b53455945204445534f4c43204854495720454341462054414320474e495353494b3b4433364631,
0x3b3b3b3b3b4e3b3b3b3b3b4e4f3b303b6f533b454341462054414320474e4954554f503b4533364631,
0x3b3b3b3b3b4e3b3b3b3b3b4e4f3b303b6f533b454341462054414320474e495952433b4633364631,
0x3b3b3b3b3b4e3b3b3b3b3b4e4f3b303b6f533b45434146205441432059524145573b3034364631,
0x3b3b3b3b3b4e3b3b3b3b3b4e4f3b303b6f533b4543414620474e494e574f524620594c544847494c533b3134364631,
0x3b3b3b3b3b4e3b3b3b3b3b4e4f3b303b6f533b4543414620474e494c494d5320594c544847494c533b3234364631,
0x3b3b3b3b3b4e3b3b3b3b3b4e4f3b303b6f533b45434146204e574f442d4544495350553b3334364631,
0x3b3b3b3b3b4e3b3b3b3b3b4e4f3b303b6f533b5345594520474e494c4c4f52204854495720454341463b3434364631,
0x3b3b3b3b3b4e3b3b3b3b3b4e4f3b303b6f533b4552555453454720444f4f47204f4e204854495720454341463b3534364631,
0x3b3b3b3b3b4e3b3b3b3b3b4e4f3b303b6f533b45525554534547204b4f204854495720454341463b3634364631,
0x3b3b3b3b3b4e3b3b3b3b3b4e4f3b303b6f533b594c5045454420474e49574f42204e4f535245503b3734364631,
0x3b3b3b3b3b4e3b3b3b3b3b4e4f3b303b6f533b59454b4e4f4d204c4956452d4f4e2d4545533b3834364631,
0x3b3b3b3b3b4e3b3b3b3b3b4e4f3b303b6f533b59454b4e4f4d204c4956452d4f4e2d524145483b3934364631,
0x3b3b3b3b3b4e3b3b3b3b3b4e4f3b303b6f533b59454b4e4f4d204c4956452d4f4e2d4b414550533b4134364631,
0x3b3b3b3b3b4e3b3b3b3b3b4e4f3b303b6f533b444e414820454e4f20474e4953494152204e4f535245502059505041483b4234364631,
0x3b3b3b3b3b4e3b3b3b3b3b4e4f3b303b6f533b4e4f4954415242454c4543204e492053444e41482048544f4220474e4953494152204e4f535245503b4334364631,
0x3b3b3b3b3b4e3b3b3b3b3b4e4f3b303b6f533b474e494e574f5246204e4f535245503b4434364631,
0x3b3b3b3b3b4e3b3b3b3b3b4e4f3b303b6f533b4543414620474e4954554f502048544957204e4f535245503b4534364631,
0x3b3b3b3b3b4e3b3b3b3b3b4e4f3b303b6f533b53444e4148204445444c4f462048544957204e4f535245503b4634364631,
0x3b3b3b3b3b4e3b3b3b3b3b4e4f3b303b6f533b4641454c20474e49544e494f502054534557204854524f4e3b3035364631,
0x3b3b3b3b3b4e3b3b3b3b3b4e4f3b303b6f533b4641454c20474e49544e494f502054534557204854554f533b3135364631,
0x3b3b3b3b3b4e3b3b3b3b3b4e4f3b303b6f533b4641454c20474e49544e494f502054534145204854524f4e3b3235364631,
0x3b3b3b3b3b4e3b3b3b3b3b4e4f3b303b6f533b4641454c20474e49544e494f502054534145204854554f533b3335364631,
0x3b3b3b3b3b4e3b3b3b3b3b4e4f3b303b6f533b4641454c20474e49544e494f502054534557204854524f4e2044454e5255543b3435364631,
0x3b3b3b3b3b4e3b3b3b3b3b4e4f3b303b6f533b4641454c20474e49544e494f502054534557204854554f532044454e5255543b3535364631,
0x3b3b3b3b3b4e3b3b3b3b3b4e4f3b303b6f533b4641454c20474e49544e494f502054534145204854524f4e2044454e5255543b3635364631,
0x3b3b3b3b3b4e3b3b3b3b3b4e4f3b303b6f533b4641454c20474e49544e494f502054534145204854554f532044454e5255543b3735364631,
0x3b3b3b3b3b4e3b3b3b3b3b4e4f3b303b6f533b4641454c20454e495620474e49544e494f502054534557204854524f4e3b3835364631,
0x3b3b3b3b3b4e3b3b3b3b3b4e4f3b303b6f533b4641454c20454e495620474e49544e494f502054534557204854554f533b3935364631,
0x3b3b3b3b3b4e3b3b3b3b3b4e4f3b303b6f533b4641454c20454e495620474e49544e494f502054534145204854524f4e3b4135364631,
0x3b3b3b3b3b4e3b3b3b3b3b4e4f3b303b6f533b4641454c20454e495620474e49544e494f502054534145204854554f533b4235364631,
0x3b3b3b3b3b4e3b3b3b3b3b4e4f3b303b6f533b4641454c20454e495620474e49544e494f502054534557204854524f4e2059564145483b4335364631,
0x3b3b3b3b3b4e3b3b3b3b3b4e4f3b303b6f533b4641454c20454e495620474e49544e494f502054534557204854554f532059564145483b4435364631,
0x3b3b3b3b3b4e3b3b3b3b3b4e4f3b303b6f533b4641454c20454e495620474e49544e494f502054534145204854524f4e2059564145483b4535364631,
0x3b3b3b3b3b4e3b3b3b3b3b4e4f3b303b6f533b4641454c20454e495620474e49544e494f502054534145204854554f532059564145483b4635364631,
0x3b3b3b3b3b4e3b3b3b3b3b4e4f3b303b6f533b44554220474e49544e494f502054534557204854524f4e3b3036364631,
0x3b3b3b3b3b4e3b3b3b3b3b4e4f3b303b6f533b44554220474e49544e494f502054534557204854554f533b3136364631,
0x3b3b3b3b3b4e3b3b3b3b3b4e4f3b303b6f533b44554220474e49544e494f502054534145204854524f4e3b3236364631,
0x3b3b3b3b3b4e3b3b3b3b3b4e4f3b303b6f533b44554220474e49544e494f502054534145204854554f533b3336364631,
0x3b3b3b3b3b4e3b3b3b3b3b4e4f3b303b6f533b44554220474e49544e494f502054534557204854524f4e2059564145483b3436364631,
0x3b3b3b3b3b4e3b3b3b3b3b4e4f3b303b6f533b44554220474e49544e494f502054534557204854554f532059564145483b3536364631,
0x3b3b3b3b3b4e3b3b3b3b3b4e4f3b303b6f533b44554220474e49544e494f502054534145204854524f4e2059564145483b3636364631,
0x3b3b3b3b3b4e3b3b3b3b3b4e4f3b303b6f533b44554220474e49544e494f502054534145204854554f532059564145483b3736364631,
0x3b3b3b3b3b4e3b3b3b3b3b4e4f3b303b6f533b544e454d414e524f2045524155515320544c49555120574f4c4c4f483b3836364631,
0x3b3b3b3b3b4e3b3b3b3b3b4e4f3b303b6f533b455241555153204b43414c42204e4920544e454d414e524f2045524155515320544c49555120574f4c4c4f483b3936364631,
0x3b3b3b3b3b4e3b3b3b3b3b4e4f3b303b6f533b544e454d414e524f2045524155515320544c4955512044494c4f533b4136364631,
0x3b3b3b3b3b4e3b3b3b3b3b4e4f3b303b6f533b455241555153204b43414c42204e4920544e454d414e524f2045524155515320544c4955512044494c4f533b4236364631,
0x3b3b3b3b3b4e3b3b3b3b3b4e4f3b303b6f533b54454b434f522053445241575446454c3b4336364631,
0x3b3b3b3b3b4e3b3b3b3b3b4e4f3b303b6f533b54454b434f5220534452415750553b4436364631,
0x3b3b3b3b3b4e3b3b3b3b3b4e4f3b303b6f533b54454b434f5220534452415754484749523b4536364631,
0x3b3b3b3b3b4e3b3b3b3b3b4e4f3b303b6f533b54454b434f522053445241574e574f443b4636364631,
0x3b3b3b3b3b4e3b3b3b3b3b4e4f3b303b6f533b544e454d414e524f20544520455255544147494c205450495243533b3037364631,
0x3b3b3b3b3b4e3b3b3b3b3b4e4f3b303b6f533b544e454d414e524f20544520455255544147494c205450495243532059564145483b3137364631,
0x3b3b3b3b3b4e3b3b3b3b3b4e4f3b303b6f533b544e454d414e524f205445204e45504f20455255544147494c3b3237364631,
0x3b3b3b3b3b4e3b3b3b3b3b4e4f3b303b6f533b544e454d414e524f205445204e45504f20455255544147494c2059564145483b3337364631,
0x3b3b3b3b3b4e3b3b3b3b3b4e4f3b303b6f533b544e454d414e524f20444e41535245504d412059564145483b3437364631,
0x3b3b3b3b3b4e3b3b3b3b3b4e4f3b303b6f533b544e454d414e524f20444e41535245504d412048534157533b3537364631,
0x3b3b3b3b3b4e3b3b3b3b3b4e4f3b303b6f533b544e454d414e524f204b52414d204e4f495441544f555120414d4d4f432044454e52555420454c42554f442059564145482046495245532d534e41533b3637364631,
0x3b3b3b3b3b4e3b3b3b3b3b4e4f3b303b6f533b544e454d414e524f204b52414d204e4f495441544f555120414d4d4f4320454c42554f442059564145482046495245532d534e41533b3737364631,
0x3b3b3b3b3b4e3b3b3b3b3b4e4f3b303b6f533b544e454d414e524f204b52414d204e4f495441544f555120414d4d4f4320454c42554f4420574f4c2059564145482046495245532d534e41533b3837364631,
0x3b3b3b3b3b4e3b3b3b3b3b4e4f3b303b6f533b544e454d414e524f20474e41424f525245544e492059564145483b3937364631,
0x3b3b3b3b3b4e3b3b3b3b3b4e4f3b303b6f533b544e454d414e524f20474e41424f525245544e492046495245532d534e41533b4137364631,
0x3b3b3b3b3b4e3b3b3b3b3b4e4f3b303b6f533b544e454d414e524f20474e41424f525245544e492046495245532d534e41532059564145483b4237364631,
0x3b3b3b3b3b4e3b3b3b3b3b4e4f3b303b6f533b535544494c4f5320595641454820595245563b4337364631,
0x3b3b3b3b3b4e3b3b3b3b3b4e4f3b303b6f533b535544494c4f53204553524556455220595641454820595245563b4437364631,
0x3b3b3b3b3b4e3b3b3b3b3b4e4f3b303b6f533b4452414f422052454b434548433b4537364631,
0x3b3b3b3b3b4e3b3b3b3b3b4e4f3b303b6f533b4452414f422052454b4345484320455352455645523b4637364631,
0x3b3b3b3b3b4e3b3b3b3b3b4e4f3b303b6f533b54454b434f523b3038364631,
0x3b3b3b3b3b4e3b3b3b3b3b4e4f3b303b6f533b524554504f43494c45483b3138364631,
0x3b3b3b3b3b4e3b3b3b3b3b4e4f3b303b6f533b455649544f4d4f434f4c204d414554533b3238364631,
0x3b3b3b3b3b4e3b3b3b3b3b4e4f3b303b6f533b524143205941574c4941523b3338364631,
0x3b3b3b3b3b4e3b3b3b3b3b4e4f3b303b6f533b4e494152542044454550532d484749483b3438364631,
0x3b3b3b3b3b4e3b3b3b3b3b4e4f3b303b6f533b45534f4e2054454c4c55422048544957204e494152542044454550532d484749483b3538364631,
0x3b3b3b3b3b4e3b3b3b3b3b4e4f3b303b6f533b4e494152543b3638364631,
0x3b3b3b3b3b4e3b3b3b3b3b4e4f3b303b6f533b4f5254454d3b3738364631,
0x3b3b3b3b3b4e3b3b3b3b3b4e4f3b303b6f533b4c49415220544847494c3b3838364631,
0x3b3b3b3b3b4e3b3b3b3b3b4e4f3b303b6f533b4e4f49544154533b3938364631,
0x3b3b3b3b3b4e3b3b3b3b3b4e4f3b303b6f533b4d4152543b4138364631,
0x3b3b3b3b3b4e3b3b3b3b3b4e4f3b303b6f533b524143204d4152543b4238364631,
0x3b3b3b3b3b4e3b3b3b3b3b4e4f3b303b6f533b5355423b4338364631,
0x3b3b3b3b3b4e3b3b3b3b3b4e4f3b303b6f533b53554220474e494d4f434e4f3b4438364631,
0x3b3b3b3b3b4e3b3b3b3b3b4e4f3b303b6f533b53554259454c4c4f52543b4538364631,
0x3b3b3b3b3b4e3b3b3b3b3b4e4f3b303b6f533b504f5453205355423b4638364631,
0x3b3b3b3b3b4e3b3b3b3b3b4e4f3b303b6f533b535542494e494d3b3039364631]

/-- src/u5e/props/UnicodeData.txt lines 29185-29440. -/
def rawUcd114 : List Nat := [
0x3b3b3b3b3b4e3b3b3b3b3b4e4f3b303b6f533b45434e414c55424d413b3139364631,
0x3b3b3b3b3b4e3b3b3b3b3b4e4f3b303b6f533b454e49474e4520455249463b3239364631,
0x3b3b3b3b3b4e3b3b3b3b3b4e4f3b303b6f533b524143204543494c4f503b3339364631,
0x3b3b3b3b3b4e3b3b3b3b3b4e4f3b303b6f533b524143204543494c4f5020474e494d4f434e4f3b3439364631,
0x3b3b3b3b3b4e3b3b3b3b3b4e4f3b303b6f533b495841543b3539364631,
0x3b3b3b3b3b4e3b3b3b3b3b4e4f3b303b6f533b4958415420474e494d4f434e4f3b3639364631,
0x3b3b3b3b3b4e3b3b3b3b3b4e4f3b303b6f533b454c49424f4d4f5455413b3739364631,
0x3b3b3b3b3b4e3b3b3b3b3b4e4f3b303b6f533b454c49424f4d4f54554120474e494d4f434e4f3b3839364631,
0x3b3b3b3b3b4e3b3b3b3b3b4e4f3b303b6f533b454c4349484556204c414e4f49544145524345523b3939364631,
0x3b3b3b3b3b4e3b3b3b3b3b4e4f3b303b6f533b4b435552542059524556494c45443b4139364631,
0x3b3b3b3b3b4e3b3b3b3b3b4e4f3b303b6f533b5952524f4c20444554414c5543495452413b4239364631,
0x3b3b3b3b3b4e3b3b3b3b3b4e4f3b303b6f533b524f54434152543b4339364631,
0x3b3b3b3b3b4e3b3b3b3b3b4e4f3b303b6f533b4c4941524f4e4f4d3b4439364631,
0x3b3b3b3b3b4e3b3b3b3b3b4e4f3b303b6f533b5941574c494152204e4941544e554f4d3b4539364631,
0x3b3b3b3b3b4e3b3b3b3b3b4e4f3b303b6f533b5941574c494152204e4f49534e45505355533b4639364631,
0x3b3b3b3b3b4e3b3b3b3b3b4e4f3b303b6f533b594157454c424143204e4941544e554f4d3b3041364631,
0x3b3b3b3b3b4e3b3b3b3b3b4e4f3b303b6f533b5941574d415254204c41495245413b3141364631,
0x3b3b3b3b3b4e3b3b3b3b3b4e4f3b303b6f533b504948533b3241364631,
0x3b3b3b3b3b4e3b3b3b3b3b4e4f3b303b6f533b54414f42574f523b3341364631,
0x3b3b3b3b3b4e3b3b3b3b3b4e4f3b303b6f533b54414f4244454550533b3441364631,
0x3b3b3b3b3b4e3b3b3b3b3b4e4f3b303b6f533b544847494c2043494646415254204c41544e4f5a49524f483b3541364631,
0x3b3b3b3b3b4e3b3b3b3b3b4e4f3b303b6f533b544847494c2043494646415254204c414349545245563b3641364631,
0x3b3b3b3b3b4e3b3b3b3b3b4e4f3b303b6f533b4e474953204e4f495443555254534e4f433b3741364631,
0x3b3b3b3b3b4e3b3b3b3b3b4e4f3b303b6f533b544847494c20474e49564c4f5645522053524143204543494c4f503b3841364631,
0x3b3b3b3b3b4e3b3b3b3b3b4e4f3b303b6f533b54534f50204e4f2047414c462052414c55474e414952543b3941364631,
0x3b3b3b3b3b4e3b3b3b3b3b4e4f3b303b6f533b524f4f443b4141364631,
0x3b3b3b3b3b4e3b3b3b3b3b4e4f3b303b6f533b4e474953205952544e45204f4e3b4241364631,
0x3b3b3b3b3b4e3b3b3b3b3b4e4f3b303b6f533b4c4f424d595320474e494b4f4d533b4341364631,
0x3b3b3b3b3b4e3b3b3b3b3b4e4f3b303b6f533b4c4f424d595320474e494b4f4d53204f4e3b4441364631,
0x3b3b3b3b3b4e3b3b3b3b3b4e4f3b303b6f533b4c4f424d5953204543414c5020535449204e492052455454494c205455503b4541364631,
0x3b3b3b3b3b4e3b3b3b3b3b4e4f3b303b6f533b4c4f424d59532052455454494c20544f4e204f443b4641364631,
0x3b3b3b3b3b4e3b3b3b3b3b4e4f3b303b6f533b4c4f424d595320524554415720454c4241544f503b3042364631,
0x3b3b3b3b3b4e3b3b3b3b3b4e4f3b303b6f533b4c4f424d595320524554415720454c4241544f502d4e4f4e3b3142364631,
0x3b3b3b3b3b4e3b3b3b3b3b4e4f3b303b6f533b454c43594349423b3242364631,
0x3b3b3b3b3b4e3b3b3b3b3b4e4f3b303b6f533b53454c4359434942204f4e3b3342364631,
0x3b3b3b3b3b4e3b3b3b3b3b4e4f3b303b6f533b5453494c43594349423b3442364631,
0x3b3b3b3b3b4e3b3b3b3b3b4e4f3b303b6f533b5453494c4359434942204e4941544e554f4d3b3542364631,
0x3b3b3b3b3b4e3b3b3b3b3b4e4f3b303b6f533b4e4149525453454445503b3642364631,
0x3b3b3b3b3b4e3b3b3b3b3b4e4f3b303b6f533b534e414952545345444550204f4e3b3742364631,
0x3b3b3b3b3b4e3b3b3b3b3b4e4f3b303b6f533b474e4953534f5243204e4552444c4948433b3842364631,
0x3b3b3b3b3b4e3b3b3b3b3b4e4f3b303b6f533b4c4f424d595320534e454d3b3942364631,
0x3b3b3b3b3b4e3b3b3b3b3b4e4f3b303b6f533b4c4f424d595320534e454d4f573b4142364631,
0x3b3b3b3b3b4e3b3b3b3b3b4e4f3b303b6f533b4d4f4f52545345523b4242364631,
0x3b3b3b3b3b4e3b3b3b3b3b4e4f3b303b6f533b4c4f424d595320594241423b4342364631,
0x3b3b3b3b3b4e3b3b3b3b3b4e4f3b303b6f533b54454c494f543b4442364631,
0x3b3b3b3b3b4e3b3b3b3b3b4e4f3b303b6f533b5445534f4c432052455441573b4542364631,
0x3b3b3b3b3b4e3b3b3b3b3b4e4f3b303b6f533b5245574f48533b4642364631,
0x3b3b3b3b3b4e3b3b3b3b3b4e4f3b303b6f533b485441423b3043364631,
0x3b3b3b3b3b4e3b3b3b3b3b4e4f3b303b6f533b425554485441423b3143364631,
0x3b3b3b3b3b4e3b3b3b3b3b4e4f3b303b6f533b4c4f52544e4f432054524f50535341503b3243364631,
0x3b3b3b3b3b4e3b3b3b3b3b4e4f3b303b6f533b534d4f545355433b3343364631,
0x3b3b3b3b3b4e3b3b3b3b3b4e4f3b303b6f533b4d49414c4320454741474741423b3443364631,
0x3b3b3b3b3b4e3b3b3b3b3b4e4f3b303b6f533b4547414747554c205446454c3b3543364631,
0x3b3b3b3b3b4e3b3b3b3b3b4e4f3b303b6f533b5352454e524f43204445444e554f52204854495720454c474e414952543b3643364631,
0x3b3b3b3b3b4e3b3b3b3b3b4e4f3b303b6f533b4e47495320444554494249484f52503b3743364631,
0x3b3b3b3b3b4e3b3b3b3b3b4e4f3b303b6f533b454352554f53204e4f4954414d524f464e492044454c435249433b3843364631,
0x3b3b3b3b3b4e3b3b3b3b3b4e4f3b303b6f533b4c4f424d59532053594f423b3943364631,
0x3b3b3b3b3b4e3b3b3b3b3b4e4f3b303b6f533b4c4f424d595320534c5249473b4143364631,
0x3b3b3b3b3b4e3b3b3b3b3b4e4f3b303b6f533b504d414c20444e41204843554f433b4243364631,
0x3b3b3b3b3b4e3b3b3b3b3b4e4f3b303b6f533b4e4f495441444f4d4d4f43434120474e495045454c533b4343364631,
0x3b3b3b3b3b4e3b3b3b3b3b4e4f3b303b6f533b5347414220474e4950504f48533b4443364631,
0x3b3b3b3b3b4e3b3b3b3b3b4e4f3b303b6f533b4c4c454220504f484c4c45423b4543364631,
0x3b3b3b3b3b4e3b3b3b3b3b4e4f3b303b6f533b4445423b4643364631,
0x3b3b3b3b3b4e3b3b3b3b3b4e4f3b303b6f533b50494853524f5720464f204543414c503b3044364631,
0x3b3b3b3b3b4e3b3b3b3b3b4e4f3b303b6f533b4e474953204c414e4f474154434f3b3144364631,
0x3b3b3b3b3b4e3b3b3b3b3b4e4f3b303b6f533b59454c4c4f525420474e4950504f48533b3244364631,
0x3b3b3b3b3b4e3b3b3b3b3b4e4f3b303b6f533b48434e45525720444e412052454d4d41483b3045364631,
0x3b3b3b3b3b4e3b3b3b3b3b4e4f3b303b6f533b444c454948533b3145364631,
0x3b3b3b3b3b4e3b3b3b3b3b4e4f3b303b6f533b4d555244204c494f3b3245364631,
0x3b3b3b3b3b4e3b3b3b3b3b4e4f3b303b6f533b594157524f544f4d3b3345364631,
0x3b3b3b3b3b4e3b3b3b3b3b4e4f3b303b6f533b4b43415254205941574c4941523b3445364631,
0x3b3b3b3b3b4e3b3b3b3b3b4e4f3b303b6f533b54414f4220524f544f4d3b3545364631,
0x3b3b3b3b3b4e3b3b3b3b3b4e4f3b303b6f533b454e414c505249412059524154494c494d20474e49544e494f502d50553b3645364631,
0x3b3b3b3b3b4e3b3b3b3b3b4e4f3b303b6f533b454e414c5052494120474e49544e494f502d50553b3745364631,
0x3b3b3b3b3b4e3b3b3b3b3b4e4f3b303b6f533b454e414c50524941204c4c414d5320474e49544e494f502d50553b3845364631,
0x3b3b3b3b3b4e3b3b3b3b3b4e4f3b303b6f533b454e414c50524941204c4c414d533b3945364631,
0x3b3b3b3b3b4e3b3b3b3b3b4e4f3b303b6f533b454e414c5052494120474e49544e494f502d545341454854524f4e3b4145364631,
0x3b3b3b3b3b4e3b3b3b3b3b4e4f3b303b6f533b45525554524150454420454e414c505249413b4245364631,
0x3b3b3b3b3b4e3b3b3b3b3b4e4f3b303b6f533b474e49564952524120454e414c505249413b4345364631,
0x3b3b3b3b3b4e3b3b3b3b3b4e4f3b303b6f533b4554494c4c455441533b3046364631,
0x3b3b3b3b3b4e3b3b3b3b3b4e4f3b303b6f533b454e49474e45204552494620474e494d4f434e4f3b3146364631,
0x3b3b3b3b3b4e3b3b3b3b3b4e4f3b303b6f533b455649544f4d4f434f4c204c45534549443b3246364631,
0x3b3b3b3b3b4e3b3b3b3b3b4e4f3b303b6f533b50494853205245474e45535341503b3346364631,
0x3b3b3b3b3b4e3b3b3b3b3b4e4f3b303b6f533b5245544f4f43533b3446364631,
0x3b3b3b3b3b4e3b3b3b3b3b4e4f3b303b6f533b5245544f4f435320524f544f4d3b3546364631,
0x3b3b3b3b3b4e3b3b3b3b3b4e4f3b303b6f533b454f4e41433b3646364631,
0x3b3b3b3b3b4e3b3b3b3b3b4e4f3b303b6f533b45434e45535345544e49555120524f46204c4f424d5953204c4143494d4548434c413b3030374631,
0x3b3b3b3b3b4e3b3b3b3b3b4e4f3b303b6f533b52494120524f46204c4f424d5953204c4143494d4548434c413b3130374631,
0x3b3b3b3b3b4e3b3b3b3b3b4e4f3b303b6f533b4552494620524f46204c4f424d5953204c4143494d4548434c413b3230374631,
0x3b3b3b3b3b4e3b3b3b3b3b4e4f3b303b6f533b485452414520524f46204c4f424d5953204c4143494d4548434c413b3330374631,
0x3b3b3b3b3b4e3b3b3b3b3b4e4f3b303b6f533b524554415720524f46204c4f424d5953204c4143494d4548434c413b3430374631,
0x3b3b3b3b3b4e3b3b3b3b3b4e4f3b303b6f533b534954524f464155514120524f46204c4f424d5953204c4143494d4548434c413b3530374631,
0x3b3b3b3b3b4e3b3b3b3b3b4e4f3b303b6f533b4149474552204155514120524f46204c4f424d5953204c4143494d4548434c413b3630374631,
0x3b3b3b3b3b4e3b3b3b3b3b4e4f3b303b6f533b322d4149474552204155514120524f46204c4f424d5953204c4143494d4548434c413b3730374631,
0x3b3b3b3b3b4e3b3b3b3b3b4e4f3b303b6f533b4541544956204155514120524f46204c4f424d5953204c4143494d4548434c413b3830374631,
0x3b3b3b3b3b4e3b3b3b3b3b4e4f3b303b6f533b322d4541544956204155514120524f46204c4f424d5953204c4143494d4548434c413b3930374631,
0x3b3b3b3b3b4e3b3b3b3b3b4e4f3b303b6f533b524147454e495620524f46204c4f424d5953204c4143494d4548434c413b4130374631,
0x3b3b3b3b3b4e3b3b3b3b3b4e4f3b303b6f533b322d524147454e495620524f46204c4f424d5953204c4143494d4548434c413b4230374631,
0x3b3b3b3b3b4e3b3b3b3b3b4e4f3b303b6f533b332d524147454e495620524f46204c4f424d5953204c4143494d4548434c413b4330374631,
0x3b3b3b3b3b4e3b3b3b3b3b4e4f3b303b6f533b5255464c555320524f46204c4f424d5953204c4143494d4548434c413b4430374631,
0x3b3b3b3b3b4e3b3b3b3b3b4e4f3b303b6f533b5255464c55532053524548504f534f4c49485020524f46204c4f424d5953204c4143494d4548434c413b4530374631,
0x3b3b3b3b3b4e3b3b3b3b3b4e4f3b303b6f533b5255464c5553204b43414c4220524f46204c4f424d5953204c4143494d4548434c413b4630374631,
0x3b3b3b3b3b4e3b3b3b3b3b4e4f3b303b6f533b4554414d494c425553205952554352454d20524f46204c4f424d5953204c4143494d4548434c413b3031374631,
0x3b3b3b3b3b4e3b3b3b3b3b4e4f3b303b6f533b322d4554414d494c425553205952554352454d20524f46204c4f424d5953204c4143494d4548434c413b3131374631,
0x3b3b3b3b3b4e3b3b3b3b3b4e4f3b303b6f533b332d4554414d494c425553205952554352454d20524f46204c4f424d5953204c4143494d4548434c413b3231374631,
0x3b3b3b3b3b4e3b3b3b3b3b4e4f3b303b6f533b524142414e4e494320524f46204c4f424d5953204c4143494d4548434c413b3331374631,
0x3b3b3b3b3b4e3b3b3b3b3b4e4f3b303b6f533b544c415320524f46204c4f424d5953204c4143494d4548434c413b3431374631,
0x3b3b3b3b3b4e3b3b3b3b3b4e4f3b303b6f533b455254494e20524f46204c4f424d5953204c4143494d4548434c413b3531374631,
0x3b3b3b3b3b4e3b3b3b3b3b4e4f3b303b6f533b4c4f495254495620524f46204c4f424d5953204c4143494d4548434c413b3631374631,
0x3b3b3b3b3b4e3b3b3b3b3b4e4f3b303b6f533b322d4c4f495254495620524f46204c4f424d5953204c4143494d4548434c413b3731374631,
0x3b3b3b3b3b4e3b3b3b3b3b4e4f3b303b6f533b544c4153204b434f5220524f46204c4f424d5953204c4143494d4548434c413b3831374631,
0x3b3b3b3b3b4e3b3b3b3b3b4e4f3b303b6f533b322d544c4153204b434f5220524f46204c4f424d5953204c4143494d4548434c413b3931374631,
0x3b3b3b3b3b4e3b3b3b3b3b4e4f3b303b6f533b444c4f4720524f46204c4f424d5953204c4143494d4548434c413b4131374631,
0x3b3b3b3b3b4e3b3b3b3b3b4e4f3b303b6f533b5245564c495320524f46204c4f424d5953204c4143494d4548434c413b4231374631,
0x3b3b3b3b3b4e3b3b3b3b3b4e4f3b303b6f533b45524f204e4f524920524f46204c4f424d5953204c4143494d4548434c413b4331374631,
0x3b3b3b3b3b4e3b3b3b3b3b4e4f3b303b6f533b322d45524f204e4f524920524f46204c4f424d5953204c4143494d4548434c413b4431374631,
0x3b3b3b3b3b4e3b3b3b3b3b4e4f3b303b6f533b4e4f524920464f205355434f524320524f46204c4f424d5953204c4143494d4548434c413b4531374631,
0x3b3b3b3b3b4e3b3b3b3b3b4e4f3b303b6f533b4e4f524920464f2053554c5547455220524f46204c4f424d5953204c4143494d4548434c413b4631374631,
0x3b3b3b3b3b4e3b3b3b3b3b4e4f3b303b6f533b45524f20524550504f4320524f46204c4f424d5953204c4143494d4548434c413b3032374631,
0x3b3b3b3b3b4e3b3b3b3b3b4e4f3b303b6f533b45524f20524550504f432d4e4f524920524f46204c4f424d5953204c4143494d4548434c413b3132374631,
0x3b3b3b3b3b4e3b3b3b3b3b4e4f3b303b6f533b524550504f4320464f204554414d494c42555320524f46204c4f424d5953204c4143494d4548434c413b3232374631,
0x3b3b3b3b3b4e3b3b3b3b3b4e4f3b303b6f533b524550504f4320464f205355434f524320524f46204c4f424d5953204c4143494d4548434c413b3332374631,
0x3b3b3b3b3b4e3b3b3b3b3b4e4f3b303b6f533b322d524550504f4320464f205355434f524320524f46204c4f424d5953204c4143494d4548434c413b3432374631,
0x3b3b3b3b3b4e3b3b3b3b3b4e4f3b303b6f533b455441494e4f4d49544e4120524550504f4320524f46204c4f424d5953204c4143494d4548434c413b3532374631,
0x3b3b3b3b3b4e3b3b3b3b3b4e4f3b303b6f533b455441494e4f4d49544e4120524550504f4320464f20544c415320524f46204c4f424d5953204c4143494d4548434c413b3632374631,
0x3b3b3b3b3b4e3b3b3b3b3b4e4f3b303b6f533b524550504f4320464f20544c415320464f204554414d494c42555320524f46204c4f424d5953204c4143494d4548434c413b3732374631,
0x3b3b3b3b3b4e3b3b3b3b3b4e4f3b303b6f533b53495247494452455620524f46204c4f424d5953204c4143494d4548434c413b3832374631,
0x3b3b3b3b3b4e3b3b3b3b3b4e4f3b303b6f533b45524f204e495420524f46204c4f424d5953204c4143494d4548434c413b3932374631,
0x3b3b3b3b3b4e3b3b3b3b3b4e4f3b303b6f533b45524f204441454c20524f46204c4f424d5953204c4143494d4548434c413b4132374631,
0x3b3b3b3b3b4e3b3b3b3b3b4e4f3b303b6f533b45524f20594e4f4d49544e4120524f46204c4f424d5953204c4143494d4548434c413b4232374631,
0x3b3b3b3b3b4e3b3b3b3b3b4e4f3b303b6f533b594e4f4d49544e4120464f204554414d494c42555320524f46204c4f424d5953204c4143494d4548434c413b4332374631,
0x3b3b3b3b3b4e3b3b3b3b3b4e4f3b303b6f533b594e4f4d49544e4120464f20544c415320524f46204c4f424d5953204c4143494d4548434c413b4432374631,
0x3b3b3b3b3b4e3b3b3b3b3b4e4f3b303b6f533b594e4f4d49544e4120464f20544c415320464f204554414d494c42555320524f46204c4f424d5953204c4143494d4548434c413b4532374631,
0x3b3b3b3b3b4e3b3b3b3b3b4e4f3b303b6f533b594e4f4d49544e4120464f20524147454e495620524f46204c4f424d5953204c4143494d4548434c413b4632374631,
0x3b3b3b3b3b4e3b3b3b3b3b4e4f3b303b6f533b594e4f4d49544e4120464f2053554c5547455220524f46204c4f424d5953204c4143494d4548434c413b3033374631,
0x3b3b3b3b3b4e3b3b3b3b3b4e4f3b303b6f533b322d594e4f4d49544e4120464f2053554c5547455220524f46204c4f424d5953204c4143494d4548434c413b3133374631,
0x3b3b3b3b3b4e3b3b3b3b3b4e4f3b303b6f533b53554c5547455220524f46204c4f424d5953204c4143494d4548434c413b3233374631,
0x3b3b3b3b3b4e3b3b3b3b3b4e4f3b303b6f533b322d53554c5547455220524f46204c4f424d5953204c4143494d4548434c413b3333374631,
0x3b3b3b3b3b4e3b3b3b3b3b4e4f3b303b6f533b332d53554c5547455220524f46204c4f424d5953204c4143494d4548434c413b3433374631,
0x3b3b3b3b3b4e3b3b3b3b3b4e4f3b303b6f533b342d53554c5547455220524f46204c4f424d5953204c4143494d4548434c413b3533374631,
0x3b3b3b3b3b4e3b3b3b3b3b4e4f3b303b6f533b494c414b4c4120524f46204c4f424d5953204c4143494d4548434c413b3633374631,
0x3b3b3b3b3b4e3b3b3b3b3b4e4f3b303b6f533b322d494c414b4c4120524f46204c4f424d5953204c4143494d4548434c413b3733374631,
0x3b3b3b3b3b4e3b3b3b3b3b4e4f3b303b6f533b45544953414352414d20524f46204c4f424d5953204c4143494d4548434c413b3833374631,
0x3b3b3b3b3b4e3b3b3b3b3b4e4f3b303b6f533b4341494e4f4d4d412d4c415320524f46204c4f424d5953204c4143494d4548434c413b3933374631,
0x3b3b3b3b3b4e3b3b3b3b3b4e4f3b303b6f533b43494e4553524120524f46204c4f424d5953204c4143494d4548434c413b4133374631,
0x3b3b3b3b3b4e3b3b3b3b3b4e4f3b303b6f533b5241474c41455220524f46204c4f424d5953204c4143494d4548434c413b4233374631,
0x3b3b3b3b3b4e3b3b3b3b3b4e4f3b303b6f533b322d5241474c41455220524f46204c4f424d5953204c4143494d4548434c413b4333374631,
0x3b3b3b3b3b4e3b3b3b3b3b4e4f3b303b6f533b544e454d4749504952554120524f46204c4f424d5953204c4143494d4548434c413b4433374631,
0x3b3b3b3b3b4e3b3b3b3b3b4e4f3b303b6f533b45524f204854554d53494220524f46204c4f424d5953204c4143494d4548434c413b4533374631,
0x3b3b3b3b3b4e3b3b3b3b3b4e4f3b303b6f533b52415452415420524f46204c4f424d5953204c4143494d4548434c413b4633374631,
0x3b3b3b3b3b4e3b3b3b3b3b4e4f3b303b6f533b322d52415452415420524f46204c4f424d5953204c4143494d4548434c413b3034374631,
0x3b3b3b3b3b4e3b3b3b3b3b4e4f3b303b6f533b454d494c204b4349555120524f46204c4f424d5953204c4143494d4548434c413b3134374631,
0x3b3b3b3b3b4e3b3b3b3b3b4e4f3b303b6f533b5841524f4220524f46204c4f424d5953204c4143494d4548434c413b3234374631,
0x3b3b3b3b3b4e3b3b3b3b3b4e4f3b303b6f533b322d5841524f4220524f46204c4f424d5953204c4143494d4548434c413b3334374631,
0x3b3b3b3b3b4e3b3b3b3b3b4e4f3b303b6f533b332d5841524f4220524f46204c4f424d5953204c4143494d4548434c413b3434374631,
0x3b3b3b3b3b4e3b3b3b3b3b4e4f3b303b6f533b4d554c4120524f46204c4f424d5953204c4143494d4548434c413b3534374631,
0x3b3b3b3b3b4e3b3b3b3b3b4e4f3b303b6f533b4c494f20524f46204c4f424d5953204c4143494d4548434c413b3634374631,
0x3b3b3b3b3b4e3b3b3b3b3b4e4f3b303b6f533b54495249505320524f46204c4f424d5953204c4143494d4548434c413b3734374631,
0x3b3b3b3b3b4e3b3b3b3b3b4e4f3b303b6f533b45525554434e495420524f46204c4f424d5953204c4143494d4548434c413b3834374631,
0x3b3b3b3b3b4e3b3b3b3b3b4e4f3b303b6f533b4d554720524f46204c4f424d5953204c4143494d4548434c413b3934374631,
0x3b3b3b3b3b4e3b3b3b3b3b4e4f3b303b6f533b58415720524f46204c4f424d5953204c4143494d4548434c413b4134374631,
0x3b3b3b3b3b4e3b3b3b3b3b4e4f3b303b6f533b524544574f5020524f46204c4f424d5953204c4143494d4548434c413b4234374631,
0x3b3b3b3b3b4e3b3b3b3b3b4e4f3b303b6f533b584c414320524f46204c4f424d5953204c4143494d4548434c413b4334374631,
0x3b3b3b3b3b4e3b3b3b3b3b4e4f3b303b6f533b595454555420524f46204c4f424d5953204c4143494d4548434c413b4434374631,
0x3b3b3b3b3b4e3b3b3b3b3b4e4f3b303b6f533b4d555554524f4d20545550414320524f46204c4f424d5953204c4143494d4548434c413b4534374631,
0x3b3b3b3b3b4e3b3b3b3b3b4e4f3b303b6f533b45564f4a20464f205245545045435320524f46204c4f424d5953204c4143494d4548434c413b4634374631,
0x3b3b3b3b3b4e3b3b3b3b3b4e4f3b303b6f533b535545435544414320524f46204c4f424d5953204c4143494d4548434c413b3035374631,
0x3b3b3b3b3b4e3b3b3b3b3b4e4f3b303b6f533b544e454449525420524f46204c4f424d5953204c4143494d4548434c413b3135374631,
0x3b3b3b3b3b4e3b3b3b3b3b4e4f3b303b6f533b544e4544495254204445525241545320524f46204c4f424d5953204c4143494d4548434c413b3235374631,
0x3b3b3b3b3b4e3b3b3b3b3b4e4f3b303b6f533b454e4f545345444f4c20524f46204c4f424d5953204c4143494d4548434c413b3335374631,
0x3b3b3b3b3b4e3b3b3b3b3b4e4f3b303b6f533b50414f5320524f46204c4f424d5953204c4143494d4548434c413b3435374631,
0x3b3b3b3b3b4e3b3b3b3b3b4e4f3b303b6f533b454e49525520524f46204c4f424d5953204c4143494d4548434c413b3535374631,
0x3b3b3b3b3b4e3b3b3b3b3b4e4f3b303b6f533b474e5544204553524f4820524f46204c4f424d5953204c4143494d4548434c413b3635374631,
0x3b3b3b3b3b4e3b3b3b3b3b4e4f3b303b6f533b534548534120524f46204c4f424d5953204c4143494d4548434c413b3735374631,
0x3b3b3b3b3b4e3b3b3b3b3b4e4f3b303b6f533b534548534120544f5020524f46204c4f424d5953204c4143494d4548434c413b3835374631,
0x3b3b3b3b3b4e3b3b3b3b3b4e4f3b303b6f533b4b4349524220524f46204c4f424d5953204c4143494d4548434c413b3935374631,
0x3b3b3b3b3b4e3b3b3b3b3b4e4f3b303b6f533b4b43495242204445524544574f5020524f46204c4f424d5953204c4143494d4548434c413b4135374631,
0x3b3b3b3b3b4e3b3b3b3b3b4e4f3b303b6f533b4d41474c414d4120524f46204c4f424d5953204c4143494d4548434c413b4235374631,
0x3b3b3b3b3b4e3b3b3b3b3b4e4f3b303b6f533b4d555441525453205245505553204d55544152545320524f46204c4f424d5953204c4143494d4548434c413b4335374631,
0x3b3b3b3b3b4e3b3b3b3b3b4e4f3b303b6f533b322d4d555441525453205245505553204d55544152545320524f46204c4f424d5953204c4143494d4548434c413b4435374631,
0x3b3b3b3b3b4e3b3b3b3b3b4e4f3b303b6f533b4e4f4954414d494c42555320524f46204c4f424d5953204c4143494d4548434c413b4535374631,
0x3b3b3b3b3b4e3b3b3b3b3b4e4f3b303b6f533b455441544950494345525020524f46204c4f424d5953204c4143494d4548434c413b4635374631,
0x3b3b3b3b3b4e3b3b3b3b3b4e4f3b303b6f533b4c4c495453494420524f46204c4f424d5953204c4143494d4548434c413b3036374631,
0x3b3b3b3b3b4e3b3b3b3b3b4e4f3b303b6f533b45564c4f5353494420524f46204c4f424d5953204c4143494d4548434c413b3136374631,
0x3b3b3b3b3b4e3b3b3b3b3b4e4f3b303b6f533b322d45564c4f5353494420524f46204c4f424d5953204c4143494d4548434c413b3236374631,
0x3b3b3b3b3b4e3b3b3b3b3b4e4f3b303b6f533b59464952555020524f46204c4f424d5953204c4143494d4548434c413b3336374631,
0x3b3b3b3b3b4e3b3b3b3b3b4e4f3b303b6f533b4e4f4954434146455254555020524f46204c4f424d5953204c4143494d4548434c413b3436374631,
0x3b3b3b3b3b4e3b3b3b3b3b4e4f3b303b6f533b454c42494355524320524f46204c4f424d5953204c4143494d4548434c413b3536374631,
0x3b3b3b3b3b4e3b3b3b3b3b4e4f3b303b6f533b322d454c42494355524320524f46204c4f424d5953204c4143494d4548434c413b3636374631,
0x3b3b3b3b3b4e3b3b3b3b3b4e4f3b303b6f533b332d454c42494355524320524f46204c4f424d5953204c4143494d4548434c413b3736374631,
0x3b3b3b3b3b4e3b3b3b3b3b4e4f3b303b6f533b342d454c42494355524320524f46204c4f424d5953204c4143494d4548434c413b3836374631,
0x3b3b3b3b3b4e3b3b3b3b3b4e4f3b303b6f533b352d454c42494355524320524f46204c4f424d5953204c4143494d4548434c413b3936374631,
0x3b3b3b3b3b4e3b3b3b3b3b4e4f3b303b6f533b4349424d454c4120524f46204c4f424d5953204c4143494d4548434c413b4136374631,
0x3b3b3b3b3b4e3b3b3b3b3b4e4f3b303b6f533b5952414d20464f204854414220524f46204c4f424d5953204c4143494d4548434c413b4236374631,
0x3b3b3b3b3b4e3b3b3b3b3b4e4f3b303b6f533b5352554f50415620464f204854414220524f46204c4f424d5953204c4143494d4548434c413b4336374631,
0x3b3b3b3b3b4e3b3b3b3b3b4e4f3b303b6f533b54524f54455220524f46204c4f424d5953204c4143494d4548434c413b4436374631,
0x3b3b3b3b3b4e3b3b3b3b3b4e4f3b303b6f533b52554f4820524f46204c4f424d5953204c4143494d4548434c413b4536374631,
0x3b3b3b3b3b4e3b3b3b3b3b4e4f3b303b6f533b544847494e20524f46204c4f424d5953204c4143494d4548434c413b4636374631,
0x3b3b3b3b3b4e3b3b3b3b3b4e4f3b303b6f533b544847494e2d59414420524f46204c4f424d5953204c4143494d4548434c413b3037374631,
0x3b3b3b3b3b4e3b3b3b3b3b4e4f3b303b6f533b48544e4f4d20524f46204c4f424d5953204c4143494d4548434c413b3137374631,
0x3b3b3b3b3b4e3b3b3b3b3b4e4f3b303b6f533b4d41524420464c414820524f46204c4f424d5953204c4143494d4548434c413b3237374631,
0x3b3b3b3b3b4e3b3b3b3b3b4e4f3b303b6f533b45434e554f20464c414820524f46204c4f424d5953204c4143494d4548434c413b3337374631,
0x3b3b3b3b3b4e3b3b3b3b3b4e4f3b303b6f533b454c474e414952542054484749522053454c4543534f534920474e49544e494f502d5446454c204b43414c423b3038374631,
0x3b3b3b3b3b4e3b3b3b3b3b4e4f3b303b6f533b454c474e414952542054484749522053454c4543534f534920474e49544e494f502d5055204b43414c423b3138374631,
0x3b3b3b3b3b4e3b3b3b3b3b4e4f3b303b6f533b454c474e414952542054484749522053454c4543534f534920474e49544e494f502d5448474952204b43414c423b3238374631,
0x3b3b3b3b3b4e3b3b3b3b3b4e4f3b303b6f533b454c474e414952542054484749522053454c4543534f534920474e49544e494f502d4e574f44204b43414c423b3338374631,
0x3b3b3b3b3b4e3b3b3b3b3b4e4f3b303b6f533b454c43524943204c4c414d5320594c544847494c53204b43414c423b3438374631,
0x3b3b3b3b3b4e3b3b3b3b3b4e4f3b303b6f533b454c4352494320455449485720444c4f42204d554944454d3b3538374631,
0x3b3b3b3b3b4e3b3b3b3b3b4e4f3b303b6f533b454c4352494320455449485720444c4f423b3638374631,
0x3b3b3b3b3b4e3b3b3b3b3b4e4f3b303b6f533b454c435249432045544948572059564145483b3738374631,
0x3b3b3b3b3b4e3b3b3b3b3b4e4f3b303b6f533b454c4352494320455449485720595641454820595245563b3838374631,
0x3b3b3b3b3b4e3b3b3b3b3b4e4f3b303b6f533b454c4352494320455449485720595641454820594c454d45525458453b3938374631,
0x3b3b3b3b3b4e3b3b3b3b3b4e4f3b303b6f533b454c43524943204c4c414d53204b43414c4220474e494e4941544e4f4320454c435249432045544948573b4138374631,
0x3b3b3b3b3b4e3b3b3b3b3b4e4f3b303b6f533b54454752415420444e554f523b4238374631,
0x3b3b3b3b3b4e3b3b3b3b3b4e4f3b303b6f533b45524155515320594e4954204b43414c423b4338374631,
0x3b3b3b3b3b4e3b3b3b3b3b4e4f3b303b6f533b455241555153204c4c414d5320594c544847494c53204b43414c423b4438374631,
0x3b3b3b3b3b4e3b3b3b3b3b4e4f3b303b6f533b45524155515320455449485720544847494c3b4538374631,
0x3b3b3b3b3b4e3b3b3b3b3b4e4f3b303b6f533b455241555153204554494857204d554944454d3b4638374631,
0x3b3b3b3b3b4e3b3b3b3b3b4e4f3b303b6f533b45524155515320455449485720444c4f423b3039374631,
0x3b3b3b3b3b4e3b3b3b3b3b4e4f3b303b6f533b4552415551532045544948572059564145483b3139374631,
0x3b3b3b3b3b4e3b3b3b3b3b4e4f3b303b6f533b45524155515320455449485720595641454820595245563b3239374631,
0x3b3b3b3b3b4e3b3b3b3b3b4e4f3b303b6f533b45524155515320455449485720595641454820594c454d45525458453b3339374631,
0x3b3b3b3b3b4e3b3b3b3b3b4e4f3b303b6f533b455241555153204c4c414d532059524556204b43414c4220474e494e4941544e4f43204552415551532045544948573b3439374631,
0x3b3b3b3b3b4e3b3b3b3b3b4e4f3b303b6f533b455241555153204d554944454d204b43414c4220474e494e4941544e4f43204552415551532045544948573b3539374631,
0x3b3b3b3b3b4e3b3b3b3b3b4e4f3b303b6f533b544547524154204552415551533b3639374631,
0x3b3b3b3b3b4e3b3b3b3b3b4e4f3b303b6f533b444e4f4d41494420594e4954204b43414c423b3739374631,
0x3b3b3b3b3b4e3b3b3b3b3b4e4f3b303b6f533b444e4f4d414944204c4c414d532059524556204b43414c423b3839374631,
0x3b3b3b3b3b4e3b3b3b3b3b4e4f3b303b6f533b444e4f4d414944204c4c414d53204d554944454d204b43414c423b3939374631,
0x3b3b3b3b3b4e3b3b3b3b3b4e4f3b303b6f533b444e4f4d414944204c4c414d532059524556204b43414c4220474e494e4941544e4f4320444e4f4d4149442045544948573b4139374631,
0x3b3b3b3b3b4e3b3b3b3b3b4e4f3b303b6f533b444e4f4d414944204d554944454d204b43414c4220474e494e4941544e4f4320444e4f4d4149442045544948573b4239374631,
0x3b3b3b3b3b4e3b3b3b3b3b4e4f3b303b6f533b54454752415420444e4f4d4149443b4339374631,
0x3b3b3b3b3b4e3b3b3b3b3b4e4f3b303b6f533b45474e455a4f4c20594e4954204b43414c423b4439374631,
0x3b3b3b3b3b4e3b3b3b3b3b4e4f3b303b6f533b45474e455a4f4c204c4c414d532059524556204b43414c423b4539374631,
0x3b3b3b3b3b4e3b3b3b3b3b4e4f3b303b6f533b45474e455a4f4c204c4c414d53204d554944454d204b43414c423b4639374631,
0x3b3b3b3b3b4e3b3b3b3b3b4e4f3b303b6f533b45474e455a4f4c204c4c414d53204b43414c4220474e494e4941544e4f432045474e455a4f4c2045544948573b3041374631,
0x3b3b3b3b3b4e3b3b3b3b3b4e4f3b303b6f533b53534f5243204b45455247204e4948543b3141374631,
0x3b3b3b3b3b4e3b3b3b3b3b4e4f3b303b6f533b53534f5243204b4545524720544847494c3b3241374631,
0x3b3b3b3b3b4e3b3b3b3b3b4e4f3b303b6f533b53534f5243204b45455247204d554944454d3b3341374631,
0x3b3b3b3b3b4e3b3b3b3b3b4e4f3b303b6f533b53534f5243204b4545524720444c4f423b3441374631,
0x3b3b3b3b3b4e3b3b3b3b3b4e4f3b303b6f533b53534f5243204b4545524720444c4f4220595245563b3541374631,
0x3b3b3b3b3b4e3b3b3b3b3b4e4f3b303b6f533b53534f5243204b4545524720595641454820595245563b3641374631,
0x3b3b3b3b3b4e3b3b3b3b3b4e4f3b303b6f533b53534f5243204b4545524720595641454820594c454d45525458453b3741374631,
0x3b3b3b3b3b4e3b3b3b3b3b4e4f3b303b6f533b455249544c4153204e4948543b3841374631,
0x3b3b3b3b3b4e3b3b3b3b3b4e4f3b303b6f533b455249544c415320544847494c3b3941374631,
0x3b3b3b3b3b4e3b3b3b3b3b4e4f3b303b6f533b455249544c4153204d554944454d3b4141374631,
0x3b3b3b3b3b4e3b3b3b3b3b4e4f3b303b6f533b455249544c415320444c4f423b4241374631,
0x3b3b3b3b3b4e3b3b3b3b3b4e4f3b303b6f533b455249544c41532059564145483b4341374631,
0x3b3b3b3b3b4e3b3b3b3b3b4e4f3b303b6f533b455249544c415320595641454820595245563b4441374631,
0x3b3b3b3b3b4e3b3b3b3b3b4e4f3b303b6f533b455249544c415320595641454820594c454d45525458453b4541374631,
0x3b3b3b3b3b4e3b3b3b3b3b4e4f3b303b6f533b4b534952455453412044454b4f5053204556494620544847494c3b4641374631,
0x3b3b3b3b3b4e3b3b3b3b3b4e4f3b303b6f533b4b534952455453412044454b4f50532045564946204d554944454d3b3042374631,
0x3b3b3b3b3b4e3b3b3b3b3b4e4f3b303b6f533b4b534952455453412044454b4f5053204556494620444c4f423b3142374631,
0x3b3b3b3b3b4e3b3b3b3b3b4e4f3b303b6f533b4b534952455453412044454b4f505320455649462059564145483b3242374631,
0x3b3b3b3b3b4e3b3b3b3b3b4e4f3b303b6f533b4b534952455453412044454b4f5053204556494620595641454820595245563b3342374631,
0x3b3b3b3b3b4e3b3b3b3b3b4e4f3b303b6f533b4b534952455453412044454b4f5053204556494620595641454820594c454d45525458453b3442374631,
0x3b3b3b3b3b4e3b3b3b3b3b4e4f3b303b6f533b4b534952455453412044454b4f50532058495320544847494c3b3542374631]

/-- src/u5e/props/UnicodeData.txt lines 29441-29696. -/
def rawUcd115 : List Nat := [
0x3b3b3b3b3b4e3b3b3b3b3b4e4f3b303b6f533b4b534952455453412044454b4f505320584953204d554944454d3b3642374631,
0x3b3b3b3b3b4e3b3b3b3b3b4e4f3b303b6f533b4b534952455453412044454b4f50532058495320444c4f423b3742374631,
0x3b3b3b3b3b4e3b3b3b3b3b4e4f3b303b6f533b4b534952455453412044454b4f5053205849532059564145483b3842374631,
0x3b3b3b3b3b4e3b3b3b3b3b4e4f3b303b6f533b4b534952455453412044454b4f50532058495320595641454820595245563b3942374631,
0x3b3b3b3b3b4e3b3b3b3b3b4e4f3b303b6f533b4b534952455453412044454b4f50532058495320595641454820594c454d45525458453b4142374631,
0x3b3b3b3b3b4e3b3b3b3b3b4e4f3b303b6f533b4b534952455453412044454b4f505320544847494520544847494c3b4242374631,
0x3b3b3b3b3b4e3b3b3b3b3b4e4f3b303b6f533b4b534952455453412044454b4f5053205448474945204d554944454d3b4342374631,
0x3b3b3b3b3b4e3b3b3b3b3b4e4f3b303b6f533b4b534952455453412044454b4f505320544847494520444c4f423b4442374631,
0x3b3b3b3b3b4e3b3b3b3b3b4e4f3b303b6f533b4b534952455453412044454b4f50532054484749452059564145483b4542374631,
0x3b3b3b3b3b4e3b3b3b3b3b4e4f3b303b6f533b4b534952455453412044454b4f505320544847494520595641454820595245563b4642374631,
0x3b3b3b3b3b4e3b3b3b3b3b4e4f3b303b6f533b52415453204b43414c42204445544e494f5020454552485420544847494c3b3043374631,
0x3b3b3b3b3b4e3b3b3b3b3b4e4f3b303b6f533b52415453204b43414c42204445544e494f50204545524854204d554944454d3b3143374631,
0x3b3b3b3b3b4e3b3b3b3b3b4e4f3b303b6f533b52415453204b43414c42204445544e494f502045455248543b3243374631,
0x3b3b3b3b3b4e3b3b3b3b3b4e4f3b303b6f533b52415453204c454548574e4950204445544e494f50204545524854204d554944454d3b3343374631,
0x3b3b3b3b3b4e3b3b3b3b3b4e4f3b303b6f533b52415453204b43414c42204445544e494f502052554f4620544847494c3b3443374631,
0x3b3b3b3b3b4e3b3b3b3b3b4e4f3b303b6f533b52415453204b43414c42204445544e494f502052554f46204d554944454d3b3543374631,
0x3b3b3b3b3b4e3b3b3b3b3b4e4f3b303b6f533b52415453204b43414c42204445544e494f502052554f463b3643374631,
0x3b3b3b3b3b4e3b3b3b3b3b4e4f3b303b6f533b52415453204c454548574e4950204445544e494f502052554f46204d554944454d3b3743374631,
0x3b3b3b3b3b4e3b3b3b3b3b4e4f3b303b6f533b52415453204c454548574e4950204445544e494f502052554f4620544847494c20455352455645523b3843374631,
0x3b3b3b3b3b4e3b3b3b3b3b4e4f3b303b6f533b52415453204b43414c42204445544e494f50204556494620544847494c3b3943374631,
0x3b3b3b3b3b4e3b3b3b3b3b4e4f3b303b6f533b52415453204b43414c42204445544e494f5020455649462059564145483b4143374631,
0x3b3b3b3b3b4e3b3b3b3b3b4e4f3b303b6f533b52415453204b43414c42204445544e494f5020584953204d554944454d3b4243374631,
0x3b3b3b3b3b4e3b3b3b3b3b4e4f3b303b6f533b52415453204b43414c42204445544e494f50205849532059564145483b4343374631,
0x3b3b3b3b3b4e3b3b3b3b3b4e4f3b303b6f533b52415453204c454548574e4950204445544e494f50205849533b4443374631,
0x3b3b3b3b3b4e3b3b3b3b3b4e4f3b303b6f533b52415453204b43414c42204445544e494f50205448474945204d554944454d3b4543374631,
0x3b3b3b3b3b4e3b3b3b3b3b4e4f3b303b6f533b52415453204b43414c42204445544e494f502054484749452059564145483b4643374631,
0x3b3b3b3b3b4e3b3b3b3b3b4e4f3b303b6f533b52415453204b43414c42204445544e494f5020544847494520595641454820595245563b3044374631,
0x3b3b3b3b3b4e3b3b3b3b3b4e4f3b303b6f533b52415453204c454548574e4950204445544e494f502054484749452059564145483b3144374631,
0x3b3b3b3b3b4e3b3b3b3b3b4e4f3b303b6f533b52415453204b43414c42204445544e494f502045564c45575420544847494c3b3244374631,
0x3b3b3b3b3b4e3b3b3b3b3b4e4f3b303b6f533b52415453204b43414c42204445544e494f502045564c4557542059564145483b3344374631,
0x3b3b3b3b3b4e3b3b3b3b3b4e4f3b303b6f533b52415453204c454548574e4950204445544e494f502045564c4557542059564145483b3444374631,
0x3b3b3b3b3b4e3b3b3b3b3b4e4f3b303b6f533b44414548574f52524120454c474e41495254204c4c414d53204854495720574f5252412053445241575446454c3b3030384631,
0x3b3b3b3b3b4e3b3b3b3b3b4e4f3b303b6f533b44414548574f52524120454c474e41495254204c4c414d53204854495720574f52524120534452415750553b3130384631,
0x3b3b3b3b3b4e3b3b3b3b3b4e4f3b303b6f533b44414548574f52524120454c474e41495254204c4c414d53204854495720574f52524120534452415754484749523b3230384631,
0x3b3b3b3b3b4e3b3b3b3b3b4e4f3b303b6f533b44414548574f52524120454c474e41495254204c4c414d53204854495720574f5252412053445241574e574f443b3330384631,
0x3b3b3b3b3b4e3b3b3b3b3b4e4f3b303b6f533b44414548574f52524120454c474e41495254204d554944454d204854495720574f5252412053445241575446454c3b3430384631,
0x3b3b3b3b3b4e3b3b3b3b3b4e4f3b303b6f533b44414548574f52524120454c474e41495254204d554944454d204854495720574f52524120534452415750553b3530384631,
0x3b3b3b3b3b4e3b3b3b3b3b4e4f3b303b6f533b44414548574f52524120454c474e41495254204d554944454d204854495720574f52524120534452415754484749523b3630384631,
0x3b3b3b3b3b4e3b3b3b3b3b4e4f3b303b6f533b44414548574f52524120454c474e41495254204d554944454d204854495720574f5252412053445241574e574f443b3730384631,
0x3b3b3b3b3b4e3b3b3b3b3b4e4f3b303b6f533b44414548574f52524120454c474e4149525420454752414c204854495720574f5252412053445241575446454c3b3830384631,
0x3b3b3b3b3b4e3b3b3b3b3b4e4f3b303b6f533b44414548574f52524120454c474e4149525420454752414c204854495720574f52524120534452415750553b3930384631,
0x3b3b3b3b3b4e3b3b3b3b3b4e4f3b303b6f533b44414548574f52524120454c474e4149525420454752414c204854495720574f52524120534452415754484749523b4130384631,
0x3b3b3b3b3b4e3b3b3b3b3b4e4f3b303b6f533b44414548574f52524120454c474e4149525420454752414c204854495720574f5252412053445241574e574f443b4230384631,
0x3b3b3b3b3b4e3b3b3b3b3b4e4f3b303b6f533b44414548574f525241204c41524554414c49555145204c4c414d53204854495720574f5252412053445241575446454c3b3031384631,
0x3b3b3b3b3b4e3b3b3b3b3b4e4f3b303b6f533b44414548574f525241204c41524554414c49555145204c4c414d53204854495720574f52524120534452415750553b3131384631,
0x3b3b3b3b3b4e3b3b3b3b3b4e4f3b303b6f533b44414548574f525241204c41524554414c49555145204c4c414d53204854495720574f52524120534452415754484749523b3231384631,
0x3b3b3b3b3b4e3b3b3b3b3b4e4f3b303b6f533b44414548574f525241204c41524554414c49555145204c4c414d53204854495720574f5252412053445241574e574f443b3331384631,
0x3b3b3b3b3b4e3b3b3b3b3b4e4f3b303b6f533b44414548574f525241204c41524554414c49555145204854495720574f5252412053445241575446454c3b3431384631,
0x3b3b3b3b3b4e3b3b3b3b3b4e4f3b303b6f533b44414548574f525241204c41524554414c49555145204854495720574f52524120534452415750553b3531384631,
0x3b3b3b3b3b4e3b3b3b3b3b4e4f3b303b6f533b44414548574f525241204c41524554414c49555145204854495720574f52524120534452415754484749523b3631384631,
0x3b3b3b3b3b4e3b3b3b3b3b4e4f3b303b6f533b44414548574f525241204c41524554414c49555145204854495720574f5252412053445241574e574f443b3731384631,
0x3b3b3b3b3b4e3b3b3b3b3b4e4f3b303b6f533b44414548574f525241204c41524554414c49555145204854495720574f5252412053445241575446454c2059564145483b3831384631,
0x3b3b3b3b3b4e3b3b3b3b3b4e4f3b303b6f533b44414548574f525241204c41524554414c49555145204854495720574f52524120534452415750552059564145483b3931384631,
0x3b3b3b3b3b4e3b3b3b3b3b4e4f3b303b6f533b44414548574f525241204c41524554414c49555145204854495720574f52524120534452415754484749522059564145483b4131384631,
0x3b3b3b3b3b4e3b3b3b3b3b4e4f3b303b6f533b44414548574f525241204c41524554414c49555145204854495720574f5252412053445241574e574f442059564145483b4231384631,
0x3b3b3b3b3b4e3b3b3b3b3b4e4f3b303b6f533b44414548574f525241204c41524554414c4955514520454752414c204854495720574f5252412053445241575446454c2059564145483b4331384631,
0x3b3b3b3b3b4e3b3b3b3b3b4e4f3b303b6f533b44414548574f525241204c41524554414c4955514520454752414c204854495720574f52524120534452415750552059564145483b4431384631,
0x3b3b3b3b3b4e3b3b3b3b3b4e4f3b303b6f533b44414548574f525241204c41524554414c4955514520454752414c204854495720574f52524120534452415754484749522059564145483b4531384631,
0x3b3b3b3b3b4e3b3b3b3b3b4e4f3b303b6f533b44414548574f525241204c41524554414c4955514520454752414c204854495720574f5252412053445241574e574f442059564145483b4631384631,
0x3b3b3b3b3b4e3b3b3b3b3b4e4f3b303b6f533b544641485320574f5252414e204854495720574f525241204445444145482d454c474e414952542053445241575446454c3b3032384631,
0x3b3b3b3b3b4e3b3b3b3b3b4e4f3b303b6f533b544641485320574f5252414e204854495720574f525241204445444145482d454c474e4149525420534452415750553b3132384631,
0x3b3b3b3b3b4e3b3b3b3b3b4e4f3b303b6f533b544641485320574f5252414e204854495720574f525241204445444145482d454c474e4149525420534452415754484749523b3232384631,
0x3b3b3b3b3b4e3b3b3b3b3b4e4f3b303b6f533b544641485320574f5252414e204854495720574f525241204445444145482d454c474e414952542053445241574e574f443b3332384631,
0x3b3b3b3b3b4e3b3b3b3b3b4e4f3b303b6f533b5446414853204d554944454d204854495720574f525241204445444145482d454c474e414952542053445241575446454c3b3432384631,
0x3b3b3b3b3b4e3b3b3b3b3b4e4f3b303b6f533b5446414853204d554944454d204854495720574f525241204445444145482d454c474e4149525420534452415750553b3532384631,
0x3b3b3b3b3b4e3b3b3b3b3b4e4f3b303b6f533b5446414853204d554944454d204854495720574f525241204445444145482d454c474e4149525420534452415754484749523b3632384631,
0x3b3b3b3b3b4e3b3b3b3b3b4e4f3b303b6f533b5446414853204d554944454d204854495720574f525241204445444145482d454c474e414952542053445241574e574f443b3732384631,
0x3b3b3b3b3b4e3b3b3b3b3b4e4f3b303b6f533b544641485320444c4f42204854495720574f525241204445444145482d454c474e414952542053445241575446454c3b3832384631,
0x3b3b3b3b3b4e3b3b3b3b3b4e4f3b303b6f533b544641485320444c4f42204854495720574f525241204445444145482d454c474e4149525420534452415750553b3932384631,
0x3b3b3b3b3b4e3b3b3b3b3b4e4f3b303b6f533b544641485320444c4f42204854495720574f525241204445444145482d454c474e4149525420534452415754484749523b4132384631,
0x3b3b3b3b3b4e3b3b3b3b3b4e4f3b303b6f533b544641485320444c4f42204854495720574f525241204445444145482d454c474e414952542053445241574e574f443b4232384631,
0x3b3b3b3b3b4e3b3b3b3b3b4e4f3b303b6f533b5446414853205956414548204854495720574f525241204445444145482d454c474e414952542053445241575446454c3b4332384631,
0x3b3b3b3b3b4e3b3b3b3b3b4e4f3b303b6f533b5446414853205956414548204854495720574f525241204445444145482d454c474e4149525420534452415750553b4432384631,
0x3b3b3b3b3b4e3b3b3b3b3b4e4f3b303b6f533b5446414853205956414548204854495720574f525241204445444145482d454c474e4149525420534452415754484749523b4532384631,
0x3b3b3b3b3b4e3b3b3b3b3b4e4f3b303b6f533b5446414853205956414548204854495720574f525241204445444145482d454c474e414952542053445241574e574f443b4632384631,
0x3b3b3b3b3b4e3b3b3b3b3b4e4f3b303b6f533b54464148532059564145482059524556204854495720574f525241204445444145482d454c474e414952542053445241575446454c3b3033384631,
0x3b3b3b3b3b4e3b3b3b3b3b4e4f3b303b6f533b54464148532059564145482059524556204854495720574f525241204445444145482d454c474e4149525420534452415750553b3133384631,
0x3b3b3b3b3b4e3b3b3b3b3b4e4f3b303b6f533b54464148532059564145482059524556204854495720574f525241204445444145482d454c474e4149525420534452415754484749523b3233384631,
0x3b3b3b3b3b4e3b3b3b3b3b4e4f3b303b6f533b54464148532059564145482059524556204854495720574f525241204445444145482d454c474e414952542053445241574e574f443b3333384631,
0x3b3b3b3b3b4e3b3b3b3b3b4e4f3b303b6f533b574f5252412054534f502d5245474e49462053445241575446454c3b3433384631,
0x3b3b3b3b3b4e3b3b3b3b3b4e4f3b303b6f533b574f5252412054534f502d5245474e494620534452415750553b3533384631,
0x3b3b3b3b3b4e3b3b3b3b3b4e4f3b303b6f533b574f5252412054534f502d5245474e494620534452415754484749523b3633384631,
0x3b3b3b3b3b4e3b3b3b3b3b4e4f3b303b6f533b574f5252412054534f502d5245474e49462053445241574e574f443b3733384631,
0x3b3b3b3b3b4e3b3b3b3b3b4e4f3b303b6f533b574f52524120444552415551532053445241575446454c3b3833384631,
0x3b3b3b3b3b4e3b3b3b3b3b4e4f3b303b6f533b574f525241204445524155515320534452415750553b3933384631,
0x3b3b3b3b3b4e3b3b3b3b3b4e4f3b303b6f533b574f525241204445524155515320534452415754484749523b4133384631,
0x3b3b3b3b3b4e3b3b3b3b3b4e4f3b303b6f533b574f52524120444552415551532053445241574e574f443b4233384631,
0x3b3b3b3b3b4e3b3b3b3b3b4e4f3b303b6f533b574f52524120444553534552504d4f432053445241575446454c3b4333384631,
0x3b3b3b3b3b4e3b3b3b3b3b4e4f3b303b6f533b574f52524120444553534552504d4f4320534452415750553b4433384631,
0x3b3b3b3b3b4e3b3b3b3b3b4e4f3b303b6f533b574f52524120444553534552504d4f4320534452415754484749523b4533384631,
0x3b3b3b3b3b4e3b3b3b3b3b4e4f3b303b6f533b574f52524120444553534552504d4f432053445241574e574f443b4633384631,
0x3b3b3b3b3b4e3b3b3b3b3b4e4f3b303b6f533b574f52524120444553534552504d4f432059564145482053445241575446454c3b3034384631,
0x3b3b3b3b3b4e3b3b3b3b3b4e4f3b303b6f533b574f52524120444553534552504d4f4320595641454820534452415750553b3134384631,
0x3b3b3b3b3b4e3b3b3b3b3b4e4f3b303b6f533b574f52524120444553534552504d4f4320595641454820534452415754484749523b3234384631,
0x3b3b3b3b3b4e3b3b3b3b3b4e4f3b303b6f533b574f52524120444553534552504d4f432059564145482053445241574e574f443b3334384631,
0x3b3b3b3b3b4e3b3b3b3b3b4e4f3b303b6f533b574f5252412059564145482053445241575446454c3b3434384631,
0x3b3b3b3b3b4e3b3b3b3b3b4e4f3b303b6f533b574f52524120595641454820534452415750553b3534384631,
0x3b3b3b3b3b4e3b3b3b3b3b4e4f3b303b6f533b574f52524120595641454820534452415754484749523b3634384631,
0x3b3b3b3b3b4e3b3b3b3b3b4e4f3b303b6f533b574f5252412059564145482053445241574e574f443b3734384631,
0x3b3b3b3b3b4e3b3b3b3b3b4e4f3b303b6f533b574f5252412046495245532d534e41532053445241575446454c3b3035384631,
0x3b3b3b3b3b4e3b3b3b3b3b4e4f3b303b6f533b574f5252412046495245532d534e415320534452415750553b3135384631,
0x3b3b3b3b3b4e3b3b3b3b3b4e4f3b303b6f533b574f5252412046495245532d534e415320534452415754484749523b3235384631,
0x3b3b3b3b3b4e3b3b3b3b3b4e4f3b303b6f533b574f5252412046495245532d534e41532053445241574e574f443b3335384631,
0x3b3b3b3b3b4e3b3b3b3b3b4e4f3b303b6f533b574f5252412046495245532d534e41532054534557204854524f4e3b3435384631,
0x3b3b3b3b3b4e3b3b3b3b3b4e4f3b303b6f533b574f5252412046495245532d534e41532054534145204854524f4e3b3535384631,
0x3b3b3b3b3b4e3b3b3b3b3b4e4f3b303b6f533b574f5252412046495245532d534e41532054534145204854554f533b3635384631,
0x3b3b3b3b3b4e3b3b3b3b3b4e4f3b303b6f533b574f5252412046495245532d534e41532054534557204854554f533b3735384631,
0x3b3b3b3b3b4e3b3b3b3b3b4e4f3b303b6f533b574f5252412046495245532d534e4153205448474952205446454c3b3835384631,
0x3b3b3b3b3b4e3b3b3b3b3b4e4f3b303b6f533b574f5252412046495245532d534e4153204e574f442050553b3935384631,
0x3b3b3b3b3b4e3b3b3b3b3b4e4f3b303b6f533b574f525241204252414220544847494c2053445241575446454c204445444145482d454449573b3036384631,
0x3b3b3b3b3b4e3b3b3b3b3b4e4f3b303b6f533b574f525241204252414220544847494c2053445241575055204445444145482d454449573b3136384631,
0x3b3b3b3b3b4e3b3b3b3b3b4e4f3b303b6f533b574f525241204252414220544847494c2053445241575448474952204445444145482d454449573b3236384631,
0x3b3b3b3b3b4e3b3b3b3b3b4e4f3b303b6f533b574f525241204252414220544847494c2053445241574e574f44204445444145482d454449573b3336384631,
0x3b3b3b3b3b4e3b3b3b3b3b4e4f3b303b6f533b574f525241204252414220544847494c2054534557204854524f4e204445444145482d454449573b3436384631,
0x3b3b3b3b3b4e3b3b3b3b3b4e4f3b303b6f533b574f525241204252414220544847494c2054534145204854524f4e204445444145482d454449573b3536384631,
0x3b3b3b3b3b4e3b3b3b3b3b4e4f3b303b6f533b574f525241204252414220544847494c2054534145204854554f53204445444145482d454449573b3636384631,
0x3b3b3b3b3b4e3b3b3b3b3b4e4f3b303b6f533b574f525241204252414220544847494c2054534557204854554f53204445444145482d454449573b3736384631,
0x3b3b3b3b3b4e3b3b3b3b3b4e4f3b303b6f533b574f52524120425241422053445241575446454c204445444145482d454449573b3836384631,
0x3b3b3b3b3b4e3b3b3b3b3b4e4f3b303b6f533b574f52524120425241422053445241575055204445444145482d454449573b3936384631,
0x3b3b3b3b3b4e3b3b3b3b3b4e4f3b303b6f533b574f52524120425241422053445241575448474952204445444145482d454449573b4136384631,
0x3b3b3b3b3b4e3b3b3b3b3b4e4f3b303b6f533b574f52524120425241422053445241574e574f44204445444145482d454449573b4236384631,
0x3b3b3b3b3b4e3b3b3b3b3b4e4f3b303b6f533b574f52524120425241422054534557204854524f4e204445444145482d454449573b4336384631,
0x3b3b3b3b3b4e3b3b3b3b3b4e4f3b303b6f533b574f52524120425241422054534145204854524f4e204445444145482d454449573b4436384631,
0x3b3b3b3b3b4e3b3b3b3b3b4e4f3b303b6f533b574f52524120425241422054534145204854554f53204445444145482d454449573b4536384631,
0x3b3b3b3b3b4e3b3b3b3b3b4e4f3b303b6f533b574f52524120425241422054534557204854554f53204445444145482d454449573b4636384631,
0x3b3b3b3b3b4e3b3b3b3b3b4e4f3b303b6f533b574f5252412042524142204d554944454d2053445241575446454c204445444145482d454449573b3037384631,
0x3b3b3b3b3b4e3b3b3b3b3b4e4f3b303b6f533b574f5252412042524142204d554944454d2053445241575055204445444145482d454449573b3137384631,
0x3b3b3b3b3b4e3b3b3b3b3b4e4f3b303b6f533b574f5252412042524142204d554944454d2053445241575448474952204445444145482d454449573b3237384631,
0x3b3b3b3b3b4e3b3b3b3b3b4e4f3b303b6f533b574f5252412042524142204d554944454d2053445241574e574f44204445444145482d454449573b3337384631,
0x3b3b3b3b3b4e3b3b3b3b3b4e4f3b303b6f533b574f5252412042524142204d554944454d2054534557204854524f4e204445444145482d454449573b3437384631,
0x3b3b3b3b3b4e3b3b3b3b3b4e4f3b303b6f533b574f5252412042524142204d554944454d2054534145204854524f4e204445444145482d454449573b3537384631,
0x3b3b3b3b3b4e3b3b3b3b3b4e4f3b303b6f533b574f5252412042524142204d554944454d2054534145204854554f53204445444145482d454449573b3637384631,
0x3b3b3b3b3b4e3b3b3b3b3b4e4f3b303b6f533b574f5252412042524142204d554944454d2054534557204854554f53204445444145482d454449573b3737384631,
0x3b3b3b3b3b4e3b3b3b3b3b4e4f3b303b6f533b574f52524120425241422059564145482053445241575446454c204445444145482d454449573b3837384631,
0x3b3b3b3b3b4e3b3b3b3b3b4e4f3b303b6f533b574f52524120425241422059564145482053445241575055204445444145482d454449573b3937384631,
0x3b3b3b3b3b4e3b3b3b3b3b4e4f3b303b6f533b574f52524120425241422059564145482053445241575448474952204445444145482d454449573b4137384631,
0x3b3b3b3b3b4e3b3b3b3b3b4e4f3b303b6f533b574f52524120425241422059564145482053445241574e574f44204445444145482d454449573b4237384631,
0x3b3b3b3b3b4e3b3b3b3b3b4e4f3b303b6f533b574f52524120425241422059564145482054534557204854524f4e204445444145482d454449573b4337384631,
0x3b3b3b3b3b4e3b3b3b3b3b4e4f3b303b6f533b574f52524120425241422059564145482054534145204854524f4e204445444145482d454449573b4437384631,
0x3b3b3b3b3b4e3b3b3b3b3b4e4f3b303b6f533b574f52524120425241422059564145482054534145204854554f53204445444145482d454449573b4537384631,
0x3b3b3b3b3b4e3b3b3b3b3b4e4f3b303b6f533b574f52524120425241422059564145482054534557204854554f53204445444145482d454449573b4637384631,
0x3b3b3b3b3b4e3b3b3b3b3b4e4f3b303b6f533b574f525241204252414220595641454820595245562053445241575446454c204445444145482d454449573b3038384631,
0x3b3b3b3b3b4e3b3b3b3b3b4e4f3b303b6f533b574f525241204252414220595641454820595245562053445241575055204445444145482d454449573b3138384631,
0x3b3b3b3b3b4e3b3b3b3b3b4e4f3b303b6f533b574f525241204252414220595641454820595245562053445241575448474952204445444145482d454449573b3238384631,
0x3b3b3b3b3b4e3b3b3b3b3b4e4f3b303b6f533b574f525241204252414220595641454820595245562053445241574e574f44204445444145482d454449573b3338384631,
0x3b3b3b3b3b4e3b3b3b3b3b4e4f3b303b6f533b574f525241204252414220595641454820595245562054534557204854524f4e204445444145482d454449573b3438384631,
0x3b3b3b3b3b4e3b3b3b3b3b4e4f3b303b6f533b574f525241204252414220595641454820595245562054534145204854524f4e204445444145482d454449573b3538384631,
0x3b3b3b3b3b4e3b3b3b3b3b4e4f3b303b6f533b574f525241204252414220595641454820595245562054534145204854554f53204445444145482d454449573b3638384631,
0x3b3b3b3b3b4e3b3b3b3b3b4e4f3b303b6f533b574f525241204252414220595641454820595245562054534557204854554f53204445444145482d454449573b3738384631,
0x3b3b3b3b3b4e3b3b3b3b3b4e4f3b303b6f533b44414548574f52524120454c474e414952542053445241575446454c3b3039384631,
0x3b3b3b3b3b4e3b3b3b3b3b4e4f3b303b6f533b44414548574f52524120454c474e4149525420534452415750553b3139384631,
0x3b3b3b3b3b4e3b3b3b3b3b4e4f3b303b6f533b44414548574f52524120454c474e4149525420534452415754484749523b3239384631,
0x3b3b3b3b3b4e3b3b3b3b3b4e4f3b303b6f533b44414548574f52524120454c474e414952542053445241574e574f443b3339384631,
0x3b3b3b3b3b4e3b3b3b3b3b4e4f3b303b6f533b44414548574f52524120454c474e41495254204e494854495720574f5252412045544948572053445241575446454c3b3439384631,
0x3b3b3b3b3b4e3b3b3b3b3b4e4f3b303b6f533b44414548574f52524120454c474e41495254204e494854495720574f52524120455449485720534452415750553b3539384631,
0x3b3b3b3b3b4e3b3b3b3b3b4e4f3b303b6f533b44414548574f52524120454c474e41495254204e494854495720574f52524120455449485720534452415754484749523b3639384631,
0x3b3b3b3b3b4e3b3b3b3b3b4e4f3b303b6f533b44414548574f52524120454c474e41495254204e494854495720574f5252412045544948572053445241574e574f443b3739384631,
0x3b3b3b3b3b4e3b3b3b3b3b4e4f3b303b6f533b4c4941542044454843544f4e204854495720574f5252412053445241575446454c3b3839384631,
0x3b3b3b3b3b4e3b3b3b3b3b4e4f3b303b6f533b4c4941542044454843544f4e204854495720574f52524120534452415750553b3939384631,
0x3b3b3b3b3b4e3b3b3b3b3b4e4f3b303b6f533b4c4941542044454843544f4e204854495720574f52524120534452415754484749523b4139384631,
0x3b3b3b3b3b4e3b3b3b3b3b4e4f3b303b6f533b4c4941542044454843544f4e204854495720574f5252412053445241574e574f443b4239384631,
0x3b3b3b3b3b4e3b3b3b3b3b4e4f3b303b6f533b454e4f20485444495720544641485320574f5252412059564145483b4339384631,
0x3b3b3b3b3b4e3b3b3b3b3b4e4f3b303b6f533b534452494854204f575420485444495720544641485320574f5252412059564145483b4439384631,
0x3b3b3b3b3b4e3b3b3b3b3b4e4f3b303b6f533b464c414820454e4f20485444495720544641485320574f5252412059564145483b4539384631,
0x3b3b3b3b3b4e3b3b3b3b3b4e4f3b303b6f533b445249485420454e4f20485444495720544641485320574f5252412059564145483b4639384631,
0x3b3b3b3b3b4e3b3b3b3b3b4e4f3b303b6f533b574f525241204554494857204445444148532d4d4f54544f422053445241575446454c3b3041384631,
0x3b3b3b3b3b4e3b3b3b3b3b4e4f3b303b6f533b574f52524120455449485720444544414853204d4f54544f4220534452415754484749523b3141384631,
0x3b3b3b3b3b4e3b3b3b3b3b4e4f3b303b6f533b574f5252412045544948572044454441485320504f542053445241575446454c3b3241384631,
0x3b3b3b3b3b4e3b3b3b3b3b4e4f3b303b6f533b574f5252412045544948572044454441485320504f5420534452415754484749523b3341384631,
0x3b3b3b3b3b4e3b3b3b3b3b4e4f3b303b6f533b574f525241204554494857204445444148532d5446454c2053445241575446454c3b3441384631,
0x3b3b3b3b3b4e3b3b3b3b3b4e4f3b303b6f533b574f525241204554494857204445444148532d544847495220534452415754484749523b3541384631,
0x3b3b3b3b3b4e3b3b3b3b3b4e4f3b303b6f533b574f525241204554494857204445444148532d54484749522053445241575446454c3b3641384631,
0x3b3b3b3b3b4e3b3b3b3b3b4e4f3b303b6f533b574f525241204554494857204445444148532d5446454c20534452415754484749523b3741384631,
0x3b3b3b3b3b4e3b3b3b3b3b4e4f3b303b6f533b574f525241204554494857204445574f44414853204445544c49542d4b4341422053445241575446454c3b3841384631,
0x3b3b3b3b3b4e3b3b3b3b3b4e4f3b303b6f533b574f525241204554494857204445574f44414853204445544c49542d4b43414220534452415754484749523b3941384631,
0x3b3b3b3b3b4e3b3b3b3b3b4e4f3b303b6f533b574f525241204554494857204445574f44414853204445544c49542d544e4f52462053445241575446454c3b4141384631,
0x3b3b3b3b3b4e3b3b3b3b3b4e4f3b303b6f533b574f525241204554494857204445574f44414853204445544c49542d544e4f524620534452415754484749523b4241384631,
0x3b3b3b3b3b4e3b3b3b3b3b4e4f3b303b6f533b454e4f20485444495720544641485320574f5252412045544948573b4341384631,
0x3b3b3b3b3b4e3b3b3b3b3b4e4f3b303b6f533b534452494854204f575420485444495720544641485320574f5252412045544948573b4441384631,
0x3b3b3b3b3b4e3b3b3b3b3b4e4f3b303b6f533b45434146204854554f4d2d52455050495a3b3031394631,
0x3b3b3b3b3b4e3b3b3b3b3b4e4f3b303b6f533b45434146204854554f4d2d59454e4f4d3b3131394631,
0x3b3b3b3b3b4e3b3b3b3b3b4e4f3b303b6f533b524554454d4f4d52454854204854495720454341463b3231394631,
0x3b3b3b3b3b4e3b3b3b3b3b4e4f3b303b6f533b45434146204452454e3b3331394631,
0x3b3b3b3b3b4e3b3b3b3b3b4e4f3b303b6f533b4543414620474e494b4e4948543b3431394631,
0x3b3b3b3b3b4e3b3b3b3b3b4e4f3b303b6f533b454741444e41422d44414548204854495720454341463b3531394631,
0x3b3b3b3b3b4e3b3b3b3b3b4e4f3b303b6f533b4543414620544f424f523b3631394631,
0x3b3b3b3b3b4e3b3b3b3b3b4e4f3b303b6f533b4543414620474e49474755483b3731394631,
0x3b3b3b3b3b4e3b3b3b3b3b4e4f3b303b6f533b534e524f482045485420464f204e4749533b3831394631,
0x3b3b3b3b3b4e3b3b3b3b3b4e4f3b303b6f533b444e414820454d204c4c41433b3931394631,
0x3b3b3b3b3b4e3b3b3b3b3b4e4f3b303b6f533b444e414820464f204b434142204445534941523b4131394631,
0x3b3b3b3b3b4e3b3b3b3b3b4e4f3b303b6f533b5453494620474e494341462d5446454c3b4231394631,
0x3b3b3b3b3b4e3b3b3b3b3b4e4f3b303b6f533b5453494620474e494341462d54484749523b4331394631,
0x3b3b3b3b3b4e3b3b3b3b3b4e4f3b303b6f533b454b414853444e41483b4431394631,
0x3b3b3b3b3b4e3b3b3b3b3b4e4f3b303b6f533b444553534f524320535245474e494620454c4444494d20444e41205845444e49204854495720444e41483b4531394631,
0x3b3b3b3b3b4e3b3b3b3b3b4e4f3b303b6f533b54414820594f42574f43204854495720454341463b3032394631,
0x3b3b3b3b3b4e3b3b3b3b3b4e4f3b303b6f533b45434146204e574f4c433b3132394631,
0x3b3b3b3b3b4e3b3b3b3b3b4e4f3b303b6f533b454341462044455441455355414e3b3232394631,
0x3b3b3b3b3b4e3b3b3b3b3b4e4f3b303b6f533b474e49484755414c20524f4f4c4620454854204e4f20474e494c4c4f523b3332394631,
0x3b3b3b3b3b4e3b3b3b3b3b4e4f3b303b6f533b4543414620474e494c4f4f52443b3432394631,
0x3b3b3b3b3b4e3b3b3b3b3b4e4f3b303b6f533b4543414620474e49594c3b3532394631,
0x3b3b3b3b3b4e3b3b3b3b3b4e4f3b303b6f533b4d4c415020454341463b3632394631,
0x3b3b3b3b3b4e3b3b3b3b3b4e4f3b303b6f533b4543414620474e495a45454e533b3732394631,
0x3b3b3b3b3b4e3b3b3b3b3b4e4f3b303b6f533b4e414d4f5720544e414e474552503b3033394631,
0x3b3b3b3b3b4e3b3b3b3b3b4e4f3b303b6f533b4549464c45533b3333394631,
0x3b3b3b3b3b4e3b3b3b3b3b4e4f3b303b6f533b45434e4952503b3433394631,
0x3b3b3b3b3b4e3b3b3b3b3b4e4f3b303b6f533b4f4445585554204e49204e414d3b3533394631,
0x3b3b3b3b3b4e3b3b3b3b3b4e4f3b303b6f533b53414d54534952484320524548544f4d3b3633394631,
0x3b3b3b3b3b4e3b3b3b3b3b4e4f3b303b6f533b47555248533b3733394631,
0x3b3b3b3b3b4e3b3b3b3b3b4e4f3b303b6f533b4c454548575452414320474e494f44204e4f535245503b3833394631,
0x3b3b3b3b3b4e3b3b3b3b3b4e4f3b303b6f533b474e494c4747554a3b3933394631,
0x3b3b3b3b3b4e3b3b3b3b3b4e4f3b303b6f533b5245434e45463b4133394631,
0x3b3b3b3b3b4e3b3b3b3b3b4e4f3b303b6f533b4e4f4c485441544e4550204e5245444f4d3b4233394631,
0x3b3b3b3b3b4e3b3b3b3b3b4e4f3b303b6f533b5352454c54534552573b4333394631,
0x3b3b3b3b3b4e3b3b3b3b3b4e4f3b303b6f533b4f4c4f502052455441573b4433394631,
0x3b3b3b3b3b4e3b3b3b3b3b4e4f3b303b6f533b4c4c4142444e41483b4533394631,
0x3b3b3b3b3b4e3b3b3b3b3b4e4f3b303b6f533b5245574f4c46204445544c49573b3034394631,
0x3b3b3b3b3b4e3b3b3b3b3b4e4f3b303b6f533b534b434954534d5552442048544957204d5552443b3134394631,
0x3b3b3b3b3b4e3b3b3b3b3b4e4f3b303b6f533b53455353414c4720474e494b4e494c433b3234394631,
0x3b3b3b3b3b4e3b3b3b3b3b4e4f3b303b6f533b5353414c472052454c424d55543b3334394631,
0x3b3b3b3b3b4e3b3b3b3b3b4e4f3b303b6f533b4e4f4f50533b3434394631,
0x3b3b3b3b3b4e3b3b3b3b3b4e4f3b303b6f533b54454e204c414f473b3534394631,
0x3b3b3b3b3b4e3b3b3b3b3b4e4f3b303b6f533b454c4649523b3634394631,
0x3b3b3b3b3b4e3b3b3b3b3b4e4f3b303b6f533b4c4144454d204543414c502054535249463b3734394631,
0x3b3b3b3b3b4e3b3b3b3b3b4e4f3b303b6f533b4c4144454d204543414c5020444e4f4345533b3834394631,
0x3b3b3b3b3b4e3b3b3b3b3b4e4f3b303b6f533b4c4144454d204543414c502044524948543b3934394631,
0x3b3b3b3b3b4e3b3b3b3b3b4e4f3b303b6f533b45564f4c4720474e49584f423b4134394631,
0x3b3b3b3b3b4e3b3b3b3b3b4e4f3b303b6f533b4d524f46494e552053545241204c41495452414d3b4234394631,
0x3b3b3b3b3b4e3b3b3b3b3b4e4f3b303b6f533b544e415353494f52433b3035394631,
0x3b3b3b3b3b4e3b3b3b3b3b4e4f3b303b6f533b4f4441434f56413b3135394631,
0x3b3b3b3b3b4e3b3b3b3b3b4e4f3b303b6f533b5245424d554355433b3235394631,
0x3b3b3b3b3b4e3b3b3b3b3b4e4f3b303b6f533b4e4f4341423b3335394631,
0x3b3b3b3b3b4e3b3b3b3b3b4e4f3b303b6f533b4f5441544f503b3435394631,
0x3b3b3b3b3b4e3b3b3b3b3b4e4f3b303b6f533b544f525241433b3535394631,
0x3b3b3b3b3b4e3b3b3b3b3b4e4f3b303b6f533b44414552422045545445554741423b3635394631,
0x3b3b3b3b3b4e3b3b3b3b3b4e4f3b303b6f533b44414c4153204e454552473b3735394631,
0x3b3b3b3b3b4e3b3b3b3b3b4e4f3b303b6f533b444f4f4620464f204e415020574f4c4c4148533b3835394631,
0x3b3b3b3b3b4e3b3b3b3b3b4e4f3b303b6f533b444145524254414c4620444546465554533b3935394631,
0x3b3b3b3b3b4e3b3b3b3b3b4e4f3b303b6f533b4747453b4135394631,
0x3b3b3b3b3b4e3b3b3b3b3b4e4f3b303b6f533b4b4c494d20464f205353414c473b4235394631,
0x3b3b3b3b3b4e3b3b3b3b3b4e4f3b303b6f533b5354554e4145503b4335394631,
0x3b3b3b3b3b4e3b3b3b3b3b4e4f3b303b6f533b54495552464957494b3b4435394631,
0x3b3b3b3b3b4e3b3b3b3b3b4e4f3b303b6f533b53454b41434e41503b4535394631,
0x3b3b3b3b3b4e3b3b3b3b3b4e4f3b303b6f533b424152433b3038394631,
0x3b3b3b3b3b4e3b3b3b3b3b4e4f3b303b6f533b45434146204e4f494c3b3138394631,
0x3b3b3b3b3b4e3b3b3b3b3b4e4f3b303b6f533b4e4f4950524f43533b3238394631,
0x3b3b3b3b3b4e3b3b3b3b3b4e4f3b303b6f533b59454b5255543b3338394631,
0x3b3b3b3b3b4e3b3b3b3b3b4e4f3b303b6f533b45434146204e524f43494e553b3438394631,
0x3b3b3b3b3b4e3b3b3b3b3b4e4f3b303b6f533b454c4741453b3538394631,
0x3b3b3b3b3b4e3b3b3b3b3b4e4f3b303b6f533b4b4355443b3638394631,
0x3b3b3b3b3b4e3b3b3b3b3b4e4f3b303b6f533b5441423b3738394631,
0x3b3b3b3b3b4e3b3b3b3b3b4e4f3b303b6f533b4b524148533b3838394631,
0x3b3b3b3b3b4e3b3b3b3b3b4e4f3b303b6f533b4c574f3b3938394631,
0x3b3b3b3b3b4e3b3b3b3b3b4e4f3b303b6f533b4543414620584f463b4138394631,
0x3b3b3b3b3b4e3b3b3b3b3b4e4f3b303b6f533b594c465245545455423b4238394631,
0x3b3b3b3b3b4e3b3b3b3b3b4e4f3b303b6f533b524545443b4338394631,
0x3b3b3b3b3b4e3b3b3b3b3b4e4f3b303b6f533b414c4c49524f473b4438394631]

/-- src/u5e/props/UnicodeData.txt lines 29697-29952. -/
def rawUcd116 : List Nat := [
0x3b3b3b3b3b4e3b3b3b3b3b4e4f3b303b6f533b4452415a494c3b4538394631,
0x3b3b3b3b3b4e3b3b3b3b3b4e4f3b303b6f533b534f5245434f4e4948523b4638394631,
0x3b3b3b3b3b4e3b3b3b3b3b4e4f3b303b6f533b504d495248533b3039394631,
0x3b3b3b3b3b4e3b3b3b3b3b4e4f3b303b6f533b44495551533b3139394631,
0x3b3b3b3b3b4e3b3b3b3b3b4e4f3b303b6f533b4547444557204553454548433b3043394631,
0x3b3b3b3b3b4e3b3b3b3b3b4c3b303b6f4c3b3e7473726946202c42206e6f69736e657478452068706172676f656449204b4a433c3b3030303032,
0x3b3b3b3b3b4e3b3b3b3b3b4c3b303b6f4c3b3e7473614c202c42206e6f69736e657478452068706172676f656449204b4a433c3b3644364132,
0x3b3b3b3b3b4e3b3b3b3b3b4c3b303b6f4c3b3e7473726946202c43206e6f69736e657478452068706172676f656449204b4a433c3b3030374132,
0x3b3b3b3b3b4e3b3b3b3b3b4c3b303b6f4c3b3e7473614c202c43206e6f69736e657478452068706172676f656449204b4a433c3b3433374232,
0x3b3b3b3b3b4e3b3b3b3b3b4c3b303b6f4c3b3e7473726946202c44206e6f69736e657478452068706172676f656449204b4a433c3b3034374232,
0x3b3b3b3b3b4e3b3b3b3b3b4c3b303b6f4c3b3e7473614c202c44206e6f69736e657478452068706172676f656449204b4a433c3b4431384232,
0x3b3b3b3b3b4e3b3b3b3b3b4c3b303b6f4c3b3e7473726946202c45206e6f69736e657478452068706172676f656449204b4a433c3b3032384232,
0x3b3b3b3b3b4e3b3b3b3b3b4c3b303b6f4c3b3e7473614c202c45206e6f69736e657478452068706172676f656449204b4a433c3b3141454332,
0x3b3b3b3b3b4e3b3b3b3b443345343b4c3b303b6f4c3b30303846322d48504152474f454449205954494c4942495441504d4f43204b4a433b3030384632,
0x3b3b3b3b3b4e3b3b3b3b383345343b4c3b303b6f4c3b31303846322d48504152474f454449205954494c4942495441504d4f43204b4a433b3130384632,
0x3b3b3b3b3b4e3b3b3b3b313445343b4c3b303b6f4c3b32303846322d48504152474f454449205954494c4942495441504d4f43204b4a433b3230384632,
0x3b3b3b3b3b4e3b3b3b3b32323130323b4c3b303b6f4c3b33303846322d48504152474f454449205954494c4942495441504d4f43204b4a433b3330384632,
0x3b3b3b3b3b4e3b3b3b3b303646343b4c3b303b6f4c3b34303846322d48504152474f454449205954494c4942495441504d4f43204b4a433b3430384632,
0x3b3b3b3b3b4e3b3b3b3b454146343b4c3b303b6f4c3b35303846322d48504152474f454449205954494c4942495441504d4f43204b4a433b3530384632,
0x3b3b3b3b3b4e3b3b3b3b424246343b4c3b303b6f4c3b36303846322d48504152474f454449205954494c4942495441504d4f43204b4a433b3630384632,
0x3b3b3b3b3b4e3b3b3b3b323030353b4c3b303b6f4c3b37303846322d48504152474f454449205954494c4942495441504d4f43204b4a433b3730384632,
0x3b3b3b3b3b4e3b3b3b3b413730353b4c3b303b6f4c3b38303846322d48504152474f454449205954494c4942495441504d4f43204b4a433b3830384632,
0x3b3b3b3b3b4e3b3b3b3b393930353b4c3b303b6f4c3b39303846322d48504152474f454449205954494c4942495441504d4f43204b4a433b3930384632,
0x3b3b3b3b3b4e3b3b3b3b374530353b4c3b303b6f4c3b41303846322d48504152474f454449205954494c4942495441504d4f43204b4a433b4130384632,
0x3b3b3b3b3b4e3b3b3b3b464330353b4c3b303b6f4c3b42303846322d48504152474f454449205954494c4942495441504d4f43204b4a433b4230384632,
0x3b3b3b3b3b4e3b3b3b3b453934333b4c3b303b6f4c3b43303846322d48504152474f454449205954494c4942495441504d4f43204b4a433b4330384632,
0x3b3b3b3b3b4e3b3b3b3b41333630323b4c3b303b6f4c3b44303846322d48504152474f454449205954494c4942495441504d4f43204b4a433b4430384632,
0x3b3b3b3b3b4e3b3b3b3b443431353b4c3b303b6f4c3b45303846322d48504152474f454449205954494c4942495441504d4f43204b4a433b4530384632,
0x3b3b3b3b3b4e3b3b3b3b343531353b4c3b303b6f4c3b46303846322d48504152474f454449205954494c4942495441504d4f43204b4a433b4630384632,
0x3b3b3b3b3b4e3b3b3b3b343631353b4c3b303b6f4c3b30313846322d48504152474f454449205954494c4942495441504d4f43204b4a433b3031384632,
0x3b3b3b3b3b4e3b3b3b3b373731353b4c3b303b6f4c3b31313846322d48504152474f454449205954494c4942495441504d4f43204b4a433b3131384632,
0x3b3b3b3b3b4e3b3b3b3b43313530323b4c3b303b6f4c3b32313846322d48504152474f454449205954494c4942495441504d4f43204b4a433b3231384632,
0x3b3b3b3b3b4e3b3b3b3b394234333b4c3b303b6f4c3b33313846322d48504152474f454449205954494c4942495441504d4f43204b4a433b3331384632,
0x3b3b3b3b3b4e3b3b3b3b373631353b4c3b303b6f4c3b34313846322d48504152474f454449205954494c4942495441504d4f43204b4a433b3431384632,
0x3b3b3b3b3b4e3b3b3b3b443831353b4c3b303b6f4c3b35313846322d48504152474f454449205954494c4942495441504d4f43204b4a433b3531384632,
0x3b3b3b3b3b4e3b3b3b3b42343530323b4c3b303b6f4c3b36313846322d48504152474f454449205954494c4942495441504d4f43204b4a433b3631384632,
0x3b3b3b3b3b4e3b3b3b3b373931353b4c3b303b6f4c3b37313846322d48504152474f454449205954494c4942495441504d4f43204b4a433b3731384632,
0x3b3b3b3b3b4e3b3b3b3b344131353b4c3b303b6f4c3b38313846322d48504152474f454449205954494c4942495441504d4f43204b4a433b3831384632,
0x3b3b3b3b3b4e3b3b3b3b434345343b4c3b303b6f4c3b39313846322d48504152474f454449205954494c4942495441504d4f43204b4a433b3931384632,
0x3b3b3b3b3b4e3b3b3b3b434131353b4c3b303b6f4c3b41313846322d48504152474f454449205954494c4942495441504d4f43204b4a433b4131384632,
0x3b3b3b3b3b4e3b3b3b3b354231353b4c3b303b6f4c3b42313846322d48504152474f454449205954494c4942495441504d4f43204b4a433b4231384632,
0x3b3b3b3b3b4e3b3b3b3b46443139323b4c3b303b6f4c3b43313846322d48504152474f454449205954494c4942495441504d4f43204b4a433b4331384632,
0x3b3b3b3b3b4e3b3b3b3b354631353b4c3b303b6f4c3b44313846322d48504152474f454449205954494c4942495441504d4f43204b4a433b4431384632,
0x3b3b3b3b3b4e3b3b3b3b333032353b4c3b303b6f4c3b45313846322d48504152474f454449205954494c4942495441504d4f43204b4a433b4531384632,
0x3b3b3b3b3b4e3b3b3b3b464434333b4c3b303b6f4c3b46313846322d48504152474f454449205954494c4942495441504d4f43204b4a433b4631384632,
0x3b3b3b3b3b4e3b3b3b3b423332353b4c3b303b6f4c3b30323846322d48504152474f454449205954494c4942495441504d4f43204b4a433b3032384632,
0x3b3b3b3b3b4e3b3b3b3b363432353b4c3b303b6f4c3b31323846322d48504152474f454449205954494c4942495441504d4f43204b4a433b3132384632,
0x3b3b3b3b3b4e3b3b3b3b323732353b4c3b303b6f4c3b32323846322d48504152474f454449205954494c4942495441504d4f43204b4a433b3232384632,
0x3b3b3b3b3b4e3b3b3b3b373732353b4c3b303b6f4c3b33323846322d48504152474f454449205954494c4942495441504d4f43204b4a433b3332384632,
0x3b3b3b3b3b4e3b3b3b3b353135333b4c3b303b6f4c3b34323846322d48504152474f454449205954494c4942495441504d4f43204b4a433b3432384632,
0x3b3b3b3b3b4e3b3b3b3b374332353b4c3b303b6f4c3b35323846322d48504152474f454449205954494c4942495441504d4f43204b4a433b3532384632,
0x3b3b3b3b3b4e3b3b3b3b394332353b4c3b303b6f4c3b36323846322d48504152474f454449205954494c4942495441504d4f43204b4a433b3632384632,
0x3b3b3b3b3b4e3b3b3b3b344532353b4c3b303b6f4c3b37323846322d48504152474f454449205954494c4942495441504d4f43204b4a433b3732384632,
0x3b3b3b3b3b4e3b3b3b3b414632353b4c3b303b6f4c3b38323846322d48504152474f454449205954494c4942495441504d4f43204b4a433b3832384632,
0x3b3b3b3b3b4e3b3b3b3b353033353b4c3b303b6f4c3b39323846322d48504152474f454449205954494c4942495441504d4f43204b4a433b3932384632,
0x3b3b3b3b3b4e3b3b3b3b363033353b4c3b303b6f4c3b41323846322d48504152474f454449205954494c4942495441504d4f43204b4a433b4132384632,
0x3b3b3b3b3b4e3b3b3b3b373133353b4c3b303b6f4c3b42323846322d48504152474f454449205954494c4942495441504d4f43204b4a433b4232384632,
0x3b3b3b3b3b4e3b3b3b3b393433353b4c3b303b6f4c3b43323846322d48504152474f454449205954494c4942495441504d4f43204b4a433b4332384632,
0x3b3b3b3b3b4e3b3b3b3b313533353b4c3b303b6f4c3b44323846322d48504152474f454449205954494c4942495441504d4f43204b4a433b4432384632,
0x3b3b3b3b3b4e3b3b3b3b413533353b4c3b303b6f4c3b45323846322d48504152474f454449205954494c4942495441504d4f43204b4a433b4532384632,
0x3b3b3b3b3b4e3b3b3b3b333733353b4c3b303b6f4c3b46323846322d48504152474f454449205954494c4942495441504d4f43204b4a433b4632384632,
0x3b3b3b3b3b4e3b3b3b3b443733353b4c3b303b6f4c3b30333846322d48504152474f454449205954494c4942495441504d4f43204b4a433b3033384632,
0x3b3b3b3b3b4e3b3b3b3b463733353b4c3b303b6f4c3b31333846322d48504152474f454449205954494c4942495441504d4f43204b4a433b3133384632,
0x3b3b3b3b3b4e3b3b3b3b463733353b4c3b303b6f4c3b32333846322d48504152474f454449205954494c4942495441504d4f43204b4a433b3233384632,
0x3b3b3b3b3b4e3b3b3b3b463733353b4c3b303b6f4c3b33333846322d48504152474f454449205954494c4942495441504d4f43204b4a433b3333384632,
0x3b3b3b3b3b4e3b3b3b3b43324130323b4c3b303b6f4c3b34333846322d48504152474f454449205954494c4942495441504d4f43204b4a433b3433384632,
0x3b3b3b3b3b4e3b3b3b3b303730373b4c3b303b6f4c3b35333846322d48504152474f454449205954494c4942495441504d4f43204b4a433b3533384632,
0x3b3b3b3b3b4e3b3b3b3b414333353b4c3b303b6f4c3b36333846322d48504152474f454449205954494c4942495441504d4f43204b4a433b3633384632,
0x3b3b3b3b3b4e3b3b3b3b464433353b4c3b303b6f4c3b37333846322d48504152474f454449205954494c4942495441504d4f43204b4a433b3733384632,
0x3b3b3b3b3b4e3b3b3b3b33364230323b4c3b303b6f4c3b38333846322d48504152474f454449205954494c4942495441504d4f43204b4a433b3833384632,
0x3b3b3b3b3b4e3b3b3b3b424533353b4c3b303b6f4c3b39333846322d48504152474f454449205954494c4942495441504d4f43204b4a433b3933384632,
0x3b3b3b3b3b4e3b3b3b3b314633353b4c3b303b6f4c3b41333846322d48504152474f454449205954494c4942495441504d4f43204b4a433b4133384632,
0x3b3b3b3b3b4e3b3b3b3b363034353b4c3b303b6f4c3b42333846322d48504152474f454449205954494c4942495441504d4f43204b4a433b4233384632,
0x3b3b3b3b3b4e3b3b3b3b453934353b4c3b303b6f4c3b43333846322d48504152474f454449205954494c4942495441504d4f43204b4a433b4333384632,
0x3b3b3b3b3b4e3b3b3b3b383334353b4c3b303b6f4c3b44333846322d48504152474f454449205954494c4942495441504d4f43204b4a433b4433384632,
0x3b3b3b3b3b4e3b3b3b3b383434353b4c3b303b6f4c3b45333846322d48504152474f454449205954494c4942495441504d4f43204b4a433b4533384632,
0x3b3b3b3b3b4e3b3b3b3b383634353b4c3b303b6f4c3b46333846322d48504152474f454449205954494c4942495441504d4f43204b4a433b4633384632,
0x3b3b3b3b3b4e3b3b3b3b324134353b4c3b303b6f4c3b30343846322d48504152474f454449205954494c4942495441504d4f43204b4a433b3034384632,
0x3b3b3b3b3b4e3b3b3b3b364634353b4c3b303b6f4c3b31343846322d48504152474f454449205954494c4942495441504d4f43204b4a433b3134384632,
0x3b3b3b3b3b4e3b3b3b3b303135353b4c3b303b6f4c3b32343846322d48504152474f454449205954494c4942495441504d4f43204b4a433b3234384632,
0x3b3b3b3b3b4e3b3b3b3b333535353b4c3b303b6f4c3b33343846322d48504152474f454449205954494c4942495441504d4f43204b4a433b3334384632,
0x3b3b3b3b3b4e3b3b3b3b333635353b4c3b303b6f4c3b34343846322d48504152474f454449205954494c4942495441504d4f43204b4a433b3434384632,
0x3b3b3b3b3b4e3b3b3b3b343835353b4c3b303b6f4c3b35343846322d48504152474f454449205954494c4942495441504d4f43204b4a433b3534384632,
0x3b3b3b3b3b4e3b3b3b3b343835353b4c3b303b6f4c3b36343846322d48504152474f454449205954494c4942495441504d4f43204b4a433b3634384632,
0x3b3b3b3b3b4e3b3b3b3b393935353b4c3b303b6f4c3b37343846322d48504152474f454449205954494c4942495441504d4f43204b4a433b3734384632,
0x3b3b3b3b3b4e3b3b3b3b424135353b4c3b303b6f4c3b38343846322d48504152474f454449205954494c4942495441504d4f43204b4a433b3834384632,
0x3b3b3b3b3b4e3b3b3b3b334235353b4c3b303b6f4c3b39343846322d48504152474f454449205954494c4942495441504d4f43204b4a433b3934384632,
0x3b3b3b3b3b4e3b3b3b3b324335353b4c3b303b6f4c3b41343846322d48504152474f454449205954494c4942495441504d4f43204b4a433b4134384632,
0x3b3b3b3b3b4e3b3b3b3b363137353b4c3b303b6f4c3b42343846322d48504152474f454449205954494c4942495441504d4f43204b4a433b4234384632,
0x3b3b3b3b3b4e3b3b3b3b363036353b4c3b303b6f4c3b43343846322d48504152474f454449205954494c4942495441504d4f43204b4a433b4334384632,
0x3b3b3b3b3b4e3b3b3b3b373137353b4c3b303b6f4c3b44343846322d48504152474f454449205954494c4942495441504d4f43204b4a433b4434384632,
0x3b3b3b3b3b4e3b3b3b3b313536353b4c3b303b6f4c3b45343846322d48504152474f454449205954494c4942495441504d4f43204b4a433b4534384632,
0x3b3b3b3b3b4e3b3b3b3b343736353b4c3b303b6f4c3b46343846322d48504152474f454449205954494c4942495441504d4f43204b4a433b4634384632,
0x3b3b3b3b3b4e3b3b3b3b373032353b4c3b303b6f4c3b30353846322d48504152474f454449205954494c4942495441504d4f43204b4a433b3035384632,
0x3b3b3b3b3b4e3b3b3b3b454538353b4c3b303b6f4c3b31353846322d48504152474f454449205954494c4942495441504d4f43204b4a433b3135384632,
0x3b3b3b3b3b4e3b3b3b3b454337353b4c3b303b6f4c3b32353846322d48504152474f454449205954494c4942495441504d4f43204b4a433b3235384632,
0x3b3b3b3b3b4e3b3b3b3b344637353b4c3b303b6f4c3b33353846322d48504152474f454449205954494c4942495441504d4f43204b4a433b3335384632,
0x3b3b3b3b3b4e3b3b3b3b443038353b4c3b303b6f4c3b34353846322d48504152474f454449205954494c4942495441504d4f43204b4a433b3435384632,
0x3b3b3b3b3b4e3b3b3b3b423837353b4c3b303b6f4c3b35353846322d48504152474f454449205954494c4942495441504d4f43204b4a433b3535384632,
0x3b3b3b3b3b4e3b3b3b3b323338353b4c3b303b6f4c3b36353846322d48504152474f454449205954494c4942495441504d4f43204b4a433b3635384632,
0x3b3b3b3b3b4e3b3b3b3b313338353b4c3b303b6f4c3b37353846322d48504152474f454449205954494c4942495441504d4f43204b4a433b3735384632,
0x3b3b3b3b3b4e3b3b3b3b434138353b4c3b303b6f4c3b38353846322d48504152474f454449205954494c4942495441504d4f43204b4a433b3835384632,
0x3b3b3b3b3b4e3b3b3b3b34453431323b4c3b303b6f4c3b39353846322d48504152474f454449205954494c4942495441504d4f43204b4a433b3935384632,
0x3b3b3b3b3b4e3b3b3b3b324638353b4c3b303b6f4c3b41353846322d48504152474f454449205954494c4942495441504d4f43204b4a433b4135384632,
0x3b3b3b3b3b4e3b3b3b3b374638353b4c3b303b6f4c3b42353846322d48504152474f454449205954494c4942495441504d4f43204b4a433b4235384632,
0x3b3b3b3b3b4e3b3b3b3b363039353b4c3b303b6f4c3b43353846322d48504152474f454449205954494c4942495441504d4f43204b4a433b4335384632,
0x3b3b3b3b3b4e3b3b3b3b413139353b4c3b303b6f4c3b44353846322d48504152474f454449205954494c4942495441504d4f43204b4a433b4435384632,
0x3b3b3b3b3b4e3b3b3b3b323239353b4c3b303b6f4c3b45353846322d48504152474f454449205954494c4942495441504d4f43204b4a433b4535384632,
0x3b3b3b3b3b4e3b3b3b3b323639353b4c3b303b6f4c3b46353846322d48504152474f454449205954494c4942495441504d4f43204b4a433b4635384632,
0x3b3b3b3b3b4e3b3b3b3b38413631323b4c3b303b6f4c3b30363846322d48504152474f454449205954494c4942495441504d4f43204b4a433b3036384632,
0x3b3b3b3b3b4e3b3b3b3b41453631323b4c3b303b6f4c3b31363846322d48504152474f454449205954494c4942495441504d4f43204b4a433b3136384632,
0x3b3b3b3b3b4e3b3b3b3b434539353b4c3b303b6f4c3b32363846322d48504152474f454449205954494c4942495441504d4f43204b4a433b3236384632,
0x3b3b3b3b3b4e3b3b3b3b423141353b4c3b303b6f4c3b33363846322d48504152474f454449205954494c4942495441504d4f43204b4a433b3336384632,
0x3b3b3b3b3b4e3b3b3b3b373241353b4c3b303b6f4c3b34363846322d48504152474f454449205954494c4942495441504d4f43204b4a433b3436384632,
0x3b3b3b3b3b4e3b3b3b3b384439353b4c3b303b6f4c3b35363846322d48504152474f454449205954494c4942495441504d4f43204b4a433b3536384632,
0x3b3b3b3b3b4e3b3b3b3b363641353b4c3b303b6f4c3b36363846322d48504152474f454449205954494c4942495441504d4f43204b4a433b3636384632,
0x3b3b3b3b3b4e3b3b3b3b454536333b4c3b303b6f4c3b37363846322d48504152474f454449205954494c4942495441504d4f43204b4a433b3736384632,
0x3b3b3b3b3b4e3b3b3b3b434636333b4c3b303b6f4c3b38363846322d48504152474f454449205954494c4942495441504d4f43204b4a433b3836384632,
0x3b3b3b3b3b4e3b3b3b3b383042353b4c3b303b6f4c3b39363846322d48504152474f454449205954494c4942495441504d4f43204b4a433b3936384632,
0x3b3b3b3b3b4e3b3b3b3b453342353b4c3b303b6f4c3b41363846322d48504152474f454449205954494c4942495441504d4f43204b4a433b4136384632,
0x3b3b3b3b3b4e3b3b3b3b453342353b4c3b303b6f4c3b42363846322d48504152474f454449205954494c4942495441504d4f43204b4a433b4236384632,
0x3b3b3b3b3b4e3b3b3b3b38433931323b4c3b303b6f4c3b43363846322d48504152474f454449205954494c4942495441504d4f43204b4a433b4336384632,
0x3b3b3b3b3b4e3b3b3b3b334342353b4c3b303b6f4c3b44363846322d48504152474f454449205954494c4942495441504d4f43204b4a433b4436384632,
0x3b3b3b3b3b4e3b3b3b3b384442353b4c3b303b6f4c3b45363846322d48504152474f454449205954494c4942495441504d4f43204b4a433b4536384632,
0x3b3b3b3b3b4e3b3b3b3b374542353b4c3b303b6f4c3b46363846322d48504152474f454449205954494c4942495441504d4f43204b4a433b4636384632,
0x3b3b3b3b3b4e3b3b3b3b334642353b4c3b303b6f4c3b30373846322d48504152474f454449205954494c4942495441504d4f43204b4a433b3037384632,
0x3b3b3b3b3b4e3b3b3b3b38314231323b4c3b303b6f4c3b31373846322d48504152474f454449205954494c4942495441504d4f43204b4a433b3137384632,
0x3b3b3b3b3b4e3b3b3b3b464642353b4c3b303b6f4c3b32373846322d48504152474f454449205954494c4942495441504d4f43204b4a433b3237384632,
0x3b3b3b3b3b4e3b3b3b3b363043353b4c3b303b6f4c3b33373846322d48504152474f454449205954494c4942495441504d4f43204b4a433b3337384632,
0x3b3b3b3b3b4e3b3b3b3b333546353b4c3b303b6f4c3b34373846322d48504152474f454449205954494c4942495441504d4f43204b4a433b3437384632,
0x3b3b3b3b3b4e3b3b3b3b323243353b4c3b303b6f4c3b35373846322d48504152474f454449205954494c4942495441504d4f43204b4a433b3537384632,
0x3b3b3b3b3b4e3b3b3b3b313837333b4c3b303b6f4c3b36373846322d48504152474f454449205954494c4942495441504d4f43204b4a433b3637384632,
0x3b3b3b3b3b4e3b3b3b3b303643353b4c3b303b6f4c3b37373846322d48504152474f454449205954494c4942495441504d4f43204b4a433b3737384632,
0x3b3b3b3b3b4e3b3b3b3b453643353b4c3b303b6f4c3b38373846322d48504152474f454449205954494c4942495441504d4f43204b4a433b3837384632,
0x3b3b3b3b3b4e3b3b3b3b304343353b4c3b303b6f4c3b39373846322d48504152474f454449205954494c4942495441504d4f43204b4a433b3937384632,
0x3b3b3b3b3b4e3b3b3b3b443843353b4c3b303b6f4c3b41373846322d48504152474f454449205954494c4942495441504d4f43204b4a433b4137384632,
0x3b3b3b3b3b4e3b3b3b3b34454431323b4c3b303b6f4c3b42373846322d48504152474f454449205954494c4942495441504d4f43204b4a433b4237384632,
0x3b3b3b3b3b4e3b3b3b3b333444353b4c3b303b6f4c3b43373846322d48504152474f454449205954494c4942495441504d4f43204b4a433b4337384632,
0x3b3b3b3b3b4e3b3b3b3b36454431323b4c3b303b6f4c3b44373846322d48504152474f454449205954494c4942495441504d4f43204b4a433b4437384632,
0x3b3b3b3b3b4e3b3b3b3b453644353b4c3b303b6f4c3b45373846322d48504152474f454449205954494c4942495441504d4f43204b4a433b4537384632,
0x3b3b3b3b3b4e3b3b3b3b423644353b4c3b303b6f4c3b46373846322d48504152474f454449205954494c4942495441504d4f43204b4a433b4637384632,
0x3b3b3b3b3b4e3b3b3b3b433744353b4c3b303b6f4c3b30383846322d48504152474f454449205954494c4942495441504d4f43204b4a433b3038384632,
0x3b3b3b3b3b4e3b3b3b3b314544353b4c3b303b6f4c3b31383846322d48504152474f454449205954494c4942495441504d4f43204b4a433b3138384632,
0x3b3b3b3b3b4e3b3b3b3b324544353b4c3b303b6f4c3b32383846322d48504152474f454449205954494c4942495441504d4f43204b4a433b3238384632,
0x3b3b3b3b3b4e3b3b3b3b463238333b4c3b303b6f4c3b33383846322d48504152474f454449205954494c4942495441504d4f43204b4a433b3338384632,
0x3b3b3b3b3b4e3b3b3b3b444644353b4c3b303b6f4c3b34383846322d48504152474f454449205954494c4942495441504d4f43204b4a433b3438384632,
0x3b3b3b3b3b4e3b3b3b3b383245353b4c3b303b6f4c3b35383846322d48504152474f454449205954494c4942495441504d4f43204b4a433b3538384632,
0x3b3b3b3b3b4e3b3b3b3b443345353b4c3b303b6f4c3b36383846322d48504152474f454449205954494c4942495441504d4f43204b4a433b3638384632,
0x3b3b3b3b3b4e3b3b3b3b393645353b4c3b303b6f4c3b37383846322d48504152474f454449205954494c4942495441504d4f43204b4a433b3738384632,
0x3b3b3b3b3b4e3b3b3b3b323638333b4c3b303b6f4c3b38383846322d48504152474f454449205954494c4942495441504d4f43204b4a433b3838384632,
0x3b3b3b3b3b4e3b3b3b3b33383132323b4c3b303b6f4c3b39383846322d48504152474f454449205954494c4942495441504d4f43204b4a433b3938384632,
0x3b3b3b3b3b4e3b3b3b3b433738333b4c3b303b6f4c3b41383846322d48504152474f454449205954494c4942495441504d4f43204b4a433b4138384632,
0x3b3b3b3b3b4e3b3b3b3b304245353b4c3b303b6f4c3b42383846322d48504152474f454449205954494c4942495441504d4f43204b4a433b4238384632,
0x3b3b3b3b3b4e3b3b3b3b334245353b4c3b303b6f4c3b43383846322d48504152474f454449205954494c4942495441504d4f43204b4a433b4338384632,
0x3b3b3b3b3b4e3b3b3b3b364245353b4c3b303b6f4c3b44383846322d48504152474f454449205954494c4942495441504d4f43204b4a433b4438384632,
0x3b3b3b3b3b4e3b3b3b3b414345353b4c3b303b6f4c3b45383846322d48504152474f454449205954494c4942495441504d4f43204b4a433b4538384632,
0x3b3b3b3b3b4e3b3b3b3b32393341323b4c3b303b6f4c3b46383846322d48504152474f454449205954494c4942495441504d4f43204b4a433b4638384632,
0x3b3b3b3b3b4e3b393b3b3b454645353b4c3b303b6f4c3b30393846322d48504152474f454449205954494c4942495441504d4f43204b4a433b3039384632,
0x3b3b3b3b3b4e3b3b3b3b31333332323b4c3b303b6f4c3b31393846322d48504152474f454449205954494c4942495441504d4f43204b4a433b3139384632,
0x3b3b3b3b3b4e3b3b3b3b31333332323b4c3b303b6f4c3b32393846322d48504152474f454449205954494c4942495441504d4f43204b4a433b3239384632,
0x3b3b3b3b3b4e3b3b3b3b313032383b4c3b303b6f4c3b33393846322d48504152474f454449205954494c4942495441504d4f43204b4a433b3339384632,
0x3b3b3b3b3b4e3b3b3b3b323246353b4c3b303b6f4c3b34393846322d48504152474f454449205954494c4942495441504d4f43204b4a433b3439384632,
0x3b3b3b3b3b4e3b3b3b3b323246353b4c3b303b6f4c3b35393846322d48504152474f454449205954494c4942495441504d4f43204b4a433b3539384632,
0x3b3b3b3b3b4e3b3b3b3b374338333b4c3b303b6f4c3b36393846322d48504152474f454449205954494c4942495441504d4f43204b4a433b3639384632,
0x3b3b3b3b3b4e3b3b3b3b38423233323b4c3b303b6f4c3b37393846322d48504152474f454449205954494c4942495441504d4f43204b4a433b3739384632,
0x3b3b3b3b3b4e3b3b3b3b41443136323b4c3b303b6f4c3b38393846322d48504152474f454449205954494c4942495441504d4f43204b4a433b3839384632,
0x3b3b3b3b3b4e3b3b3b3b323646353b4c3b303b6f4c3b39393846322d48504152474f454449205954494c4942495441504d4f43204b4a433b3939384632,
0x3b3b3b3b3b4e3b3b3b3b423646353b4c3b303b6f4c3b41393846322d48504152474f454449205954494c4942495441504d4f43204b4a433b4139384632,
0x3b3b3b3b3b4e3b3b3b3b334538333b4c3b303b6f4c3b42393846322d48504152474f454449205954494c4942495441504d4f43204b4a433b4239384632,
0x3b3b3b3b3b4e3b3b3b3b413946353b4c3b303b6f4c3b43393846322d48504152474f454449205954494c4942495441504d4f43204b4a433b4339384632,
0x3b3b3b3b3b4e3b3b3b3b444346353b4c3b303b6f4c3b44393846322d48504152474f454449205954494c4942495441504d4f43204b4a433b4439384632,
0x3b3b3b3b3b4e3b3b3b3b374446353b4c3b303b6f4c3b45393846322d48504152474f454449205954494c4942495441504d4f43204b4a433b4539384632,
0x3b3b3b3b3b4e3b3b3b3b394646353b4c3b303b6f4c3b46393846322d48504152474f454449205954494c4942495441504d4f43204b4a433b4639384632,
0x3b3b3b3b3b4e3b3b3b3b313830363b4c3b303b6f4c3b30413846322d48504152474f454449205954494c4942495441504d4f43204b4a433b3041384632,
0x3b3b3b3b3b4e3b3b3b3b413339333b4c3b303b6f4c3b31413846322d48504152474f454449205954494c4942495441504d4f43204b4a433b3141384632,
0x3b3b3b3b3b4e3b3b3b3b433139333b4c3b303b6f4c3b32413846322d48504152474f454449205954494c4942495441504d4f43204b4a433b3241384632,
0x3b3b3b3b3b4e3b3b3b3b343930363b4c3b303b6f4c3b33413846322d48504152474f454449205954494c4942495441504d4f43204b4a433b3341384632,
0x3b3b3b3b3b4e3b3b3b3b34443632323b4c3b303b6f4c3b34413846322d48504152474f454449205954494c4942495441504d4f43204b4a433b3441384632,
0x3b3b3b3b3b4e3b3b3b3b374330363b4c3b303b6f4c3b35413846322d48504152474f454449205954494c4942495441504d4f43204b4a433b3541384632,
0x3b3b3b3b3b4e3b3b3b3b383431363b4c3b303b6f4c3b36413846322d48504152474f454449205954494c4942495441504d4f43204b4a433b3641384632,
0x3b3b3b3b3b4e3b3b3b3b433431363b4c3b303b6f4c3b37413846322d48504152474f454449205954494c4942495441504d4f43204b4a433b3741384632,
0x3b3b3b3b3b4e3b3b3b3b453431363b4c3b303b6f4c3b38413846322d48504152474f454449205954494c4942495441504d4f43204b4a433b3841384632,
0x3b3b3b3b3b4e3b3b3b3b433431363b4c3b303b6f4c3b39413846322d48504152474f454449205954494c4942495441504d4f43204b4a433b3941384632,
0x3b3b3b3b3b4e3b3b3b3b413731363b4c3b303b6f4c3b41413846322d48504152474f454449205954494c4942495441504d4f43204b4a433b4141384632,
0x3b3b3b3b3b4e3b3b3b3b453831363b4c3b303b6f4c3b42413846322d48504152474f454449205954494c4942495441504d4f43204b4a433b4241384632,
0x3b3b3b3b3b4e3b3b3b3b324231363b4c3b303b6f4c3b43413846322d48504152474f454449205954494c4942495441504d4f43204b4a433b4341384632,
0x3b3b3b3b3b4e3b3b3b3b344131363b4c3b303b6f4c3b44413846322d48504152474f454449205954494c4942495441504d4f43204b4a433b4441384632,
0x3b3b3b3b3b4e3b3b3b3b464131363b4c3b303b6f4c3b45413846322d48504152474f454449205954494c4942495441504d4f43204b4a433b4541384632,
0x3b3b3b3b3b4e3b3b3b3b454431363b4c3b303b6f4c3b46413846322d48504152474f454449205954494c4942495441504d4f43204b4a433b4641384632,
0x3b3b3b3b3b4e3b3b3b3b324631363b4c3b303b6f4c3b30423846322d48504152474f454449205954494c4942495441504d4f43204b4a433b3042384632,
0x3b3b3b3b3b4e3b3b3b3b364631363b4c3b303b6f4c3b31423846322d48504152474f454449205954494c4942495441504d4f43204b4a433b3142384632,
0x3b3b3b3b3b4e3b3b3b3b303132363b4c3b303b6f4c3b32423846322d48504152474f454449205954494c4942495441504d4f43204b4a433b3242384632,
0x3b3b3b3b3b4e3b3b3b3b423132363b4c3b303b6f4c3b33423846322d48504152474f454449205954494c4942495441504d4f43204b4a433b3342384632,
0x3b3b3b3b3b4e3b3b3b3b443532363b4c3b303b6f4c3b34423846322d48504152474f454449205954494c4942495441504d4f43204b4a433b3442384632,
0x3b3b3b3b3b4e3b3b3b3b314232363b4c3b303b6f4c3b35423846322d48504152474f454449205954494c4942495441504d4f43204b4a433b3542384632,
0x3b3b3b3b3b4e3b3b3b3b344432363b4c3b303b6f4c3b36423846322d48504152474f454449205954494c4942495441504d4f43204b4a433b3642384632,
0x3b3b3b3b3b4e3b3b3b3b303533363b4c3b303b6f4c3b37423846322d48504152474f454449205954494c4942495441504d4f43204b4a433b3742384632,
0x3b3b3b3b3b4e3b3b3b3b43304232323b4c3b303b6f4c3b38423846322d48504152474f454449205954494c4942495441504d4f43204b4a433b3842384632,
0x3b3b3b3b3b4e3b3b3b3b443333363b4c3b303b6f4c3b39423846322d48504152474f454449205954494c4942495441504d4f43204b4a433b3942384632,
0x3b3b3b3b3b4e3b3b3b3b434632363b4c3b303b6f4c3b41423846322d48504152474f454449205954494c4942495441504d4f43204b4a433b4142384632,
0x3b3b3b3b3b4e3b3b3b3b383633363b4c3b303b6f4c3b42423846322d48504152474f454449205954494c4942495441504d4f43204b4a433b4242384632,
0x3b3b3b3b3b4e3b3b3b3b333833363b4c3b303b6f4c3b43423846322d48504152474f454449205954494c4942495441504d4f43204b4a433b4342384632,
0x3b3b3b3b3b4e3b3b3b3b344533363b4c3b303b6f4c3b44423846322d48504152474f454449205954494c4942495441504d4f43204b4a433b4442384632,
0x3b3b3b3b3b4e3b3b3b3b31464232323b4c3b303b6f4c3b45423846322d48504152474f454449205954494c4942495441504d4f43204b4a433b4542384632,
0x3b3b3b3b3b4e3b3b3b3b323234363b4c3b303b6f4c3b46423846322d48504152474f454449205954494c4942495441504d4f43204b4a433b4642384632,
0x3b3b3b3b3b4e3b3b3b3b354333363b4c3b303b6f4c3b30433846322d48504152474f454449205954494c4942495441504d4f43204b4a433b3043384632,
0x3b3b3b3b3b4e3b3b3b3b394133363b4c3b303b6f4c3b31433846322d48504152474f454449205954494c4942495441504d4f43204b4a433b3143384632,
0x3b3b3b3b3b4e3b3b3b3b453241333b4c3b303b6f4c3b32433846322d48504152474f454449205954494c4942495441504d4f43204b4a433b3243384632,
0x3b3b3b3b3b4e3b3b3b3b393634363b4c3b303b6f4c3b33433846322d48504152474f454449205954494c4942495441504d4f43204b4a433b3343384632,
0x3b3b3b3b3b4e3b3b3b3b453734363b4c3b303b6f4c3b34433846322d48504152474f454449205954494c4942495441504d4f43204b4a433b3443384632,
0x3b3b3b3b3b4e3b3b3b3b443934363b4c3b303b6f4c3b35433846322d48504152474f454449205954494c4942495441504d4f43204b4a433b3543384632,
0x3b3b3b3b3b4e3b3b3b3b373734363b4c3b303b6f4c3b36433846322d48504152474f454449205954494c4942495441504d4f43204b4a433b3643384632,
0x3b3b3b3b3b4e3b3b3b3b433641333b4c3b303b6f4c3b37433846322d48504152474f454449205954494c4942495441504d4f43204b4a433b3743384632,
0x3b3b3b3b3b4e3b3b3b3b463435363b4c3b303b6f4c3b38433846322d48504152474f454449205954494c4942495441504d4f43204b4a433b3843384632,
0x3b3b3b3b3b4e3b3b3b3b433635363b4c3b303b6f4c3b39433846322d48504152474f454449205954494c4942495441504d4f43204b4a433b3943384632,
0x3b3b3b3b3b4e3b3b3b3b41303033323b4c3b303b6f4c3b41433846322d48504152474f454449205954494c4942495441504d4f43204b4a433b4143384632,
0x3b3b3b3b3b4e3b3b3b3b334535363b4c3b303b6f4c3b42433846322d48504152474f454449205954494c4942495441504d4f43204b4a433b4243384632,
0x3b3b3b3b3b4e3b3b3b3b384636363b4c3b303b6f4c3b43433846322d48504152474f454449205954494c4942495441504d4f43204b4a433b4343384632,
0x3b3b3b3b3b4e3b3b3b3b393436363b4c3b303b6f4c3b44433846322d48504152474f454449205954494c4942495441504d4f43204b4a433b4443384632,
0x3b3b3b3b3b4e3b3b3b3b393142333b4c3b303b6f4c3b45433846322d48504152474f454449205954494c4942495441504d4f43204b4a433b4543384632,
0x3b3b3b3b3b4e3b3b3b3b313936363b4c3b303b6f4c3b46433846322d48504152474f454449205954494c4942495441504d4f43204b4a433b4643384632,
0x3b3b3b3b3b4e3b3b3b3b383042333b4c3b303b6f4c3b30443846322d48504152474f454449205954494c4942495441504d4f43204b4a433b3044384632,
0x3b3b3b3b3b4e3b3b3b3b344541333b4c3b303b6f4c3b31443846322d48504152474f454449205954494c4942495441504d4f43204b4a433b3144384632,
0x3b3b3b3b3b4e3b3b3b3b323931353b4c3b303b6f4c3b32443846322d48504152474f454449205954494c4942495441504d4f43204b4a433b3244384632,
0x3b3b3b3b3b4e3b3b3b3b353931353b4c3b303b6f4c3b33443846322d48504152474f454449205954494c4942495441504d4f43204b4a433b3344384632,
0x3b3b3b3b3b4e3b3b3b3b303037363b4c3b303b6f4c3b34443846322d48504152474f454449205954494c4942495441504d4f43204b4a433b3444384632,
0x3b3b3b3b3b4e3b3b3b3b433936363b4c3b303b6f4c3b35443846322d48504152474f454449205954494c4942495441504d4f43204b4a433b3544384632,
0x3b3b3b3b3b4e3b3b3b3b444130383b4c3b303b6f4c3b36443846322d48504152474f454449205954494c4942495441504d4f43204b4a433b3644384632,
0x3b3b3b3b3b4e3b3b3b3b394433343b4c3b303b6f4c3b37443846322d48504152474f454449205954494c4942495441504d4f43204b4a433b3744384632,
0x3b3b3b3b3b4e3b3b3b3b373137363b4c3b303b6f4c3b38443846322d48504152474f454449205954494c4942495441504d4f43204b4a433b3844384632,
0x3b3b3b3b3b4e3b3b3b3b423137363b4c3b303b6f4c3b39443846322d48504152474f454449205954494c4942495441504d4f43204b4a433b3944384632,
0x3b3b3b3b3b4e3b3b3b3b313237363b4c3b303b6f4c3b41443846322d48504152474f454449205954494c4942495441504d4f43204b4a433b4144384632,
0x3b3b3b3b3b4e3b3b3b3b453537363b4c3b303b6f4c3b42443846322d48504152474f454449205954494c4942495441504d4f43204b4a433b4244384632,
0x3b3b3b3b3b4e3b3b3b3b333537363b4c3b303b6f4c3b43443846322d48504152474f454449205954494c4942495441504d4f43204b4a433b4344384632,
0x3b3b3b3b3b4e3b3b3b3b33433333323b4c3b303b6f4c3b44443846322d48504152474f454449205954494c4942495441504d4f43204b4a433b4444384632,
0x3b3b3b3b3b4e3b3b3b3b393442333b4c3b303b6f4c3b45443846322d48504152474f454449205954494c4942495441504d4f43204b4a433b4544384632,
0x3b3b3b3b3b4e3b3b3b3b414637363b4c3b303b6f4c3b46443846322d48504152474f454449205954494c4942495441504d4f43204b4a433b4644384632,
0x3b3b3b3b3b4e3b3b3b3b353837363b4c3b303b6f4c3b30453846322d48504152474f454449205954494c4942495441504d4f43204b4a433b3045384632,
0x3b3b3b3b3b4e3b3b3b3b323538363b4c3b303b6f4c3b31453846322d48504152474f454449205954494c4942495441504d4f43204b4a433b3145384632,
0x3b3b3b3b3b4e3b3b3b3b353838363b4c3b303b6f4c3b32453846322d48504152474f454449205954494c4942495441504d4f43204b4a433b3245384632,
0x3b3b3b3b3b4e3b3b3b3b44363433323b4c3b303b6f4c3b33453846322d48504152474f454449205954494c4942495441504d4f43204b4a433b3345384632,
0x3b3b3b3b3b4e3b3b3b3b453838363b4c3b303b6f4c3b34453846322d48504152474f454449205954494c4942495441504d4f43204b4a433b3445384632,
0x3b3b3b3b3b4e3b3b3b3b463138363b4c3b303b6f4c3b35453846322d48504152474f454449205954494c4942495441504d4f43204b4a433b3545384632,
0x3b3b3b3b3b4e3b3b3b3b343139363b4c3b303b6f4c3b36453846322d48504152474f454449205954494c4942495441504d4f43204b4a433b3645384632,
0x3b3b3b3b3b4e3b3b3b3b443942333b4c3b303b6f4c3b37453846322d48504152474f454449205954494c4942495441504d4f43204b4a433b3745384632,
0x3b3b3b3b3b4e3b3b3b3b323439363b4c3b303b6f4c3b38453846322d48504152474f454449205954494c4942495441504d4f43204b4a433b3845384632,
0x3b3b3b3b3b4e3b3b3b3b334139363b4c3b303b6f4c3b39453846322d48504152474f454449205954494c4942495441504d4f43204b4a433b3945384632,
0x3b3b3b3b3b4e3b3b3b3b414539363b4c3b303b6f4c3b41453846322d48504152474f454449205954494c4942495441504d4f43204b4a433b4145384632,
0x3b3b3b3b3b4e3b3b3b3b384141363b4c3b303b6f4c3b42453846322d48504152474f454449205954494c4942495441504d4f43204b4a433b4245384632,
0x3b3b3b3b3b4e3b3b3b3b33413633323b4c3b303b6f4c3b43453846322d48504152474f454449205954494c4942495441504d4f43204b4a433b4345384632,
0x3b3b3b3b3b4e3b3b3b3b424441363b4c3b303b6f4c3b44453846322d48504152474f454449205954494c4942495441504d4f43204b4a433b4445384632,
0x3b3b3b3b3b4e3b3b3b3b383143333b4c3b303b6f4c3b45453846322d48504152474f454449205954494c4942495441504d4f43204b4a433b4545384632,
0x3b3b3b3b3b4e3b3b3b3b313242363b4c3b303b6f4c3b46453846322d48504152474f454449205954494c4942495441504d4f43204b4a433b4645384632,
0x3b3b3b3b3b4e3b3b3b3b37413833323b4c3b303b6f4c3b30463846322d48504152474f454449205954494c4942495441504d4f43204b4a433b3046384632,
0x3b3b3b3b3b4e3b3b3b3b343542363b4c3b303b6f4c3b31463846322d48504152474f454449205954494c4942495441504d4f43204b4a433b3146384632,
0x3b3b3b3b3b4e3b3b3b3b453443333b4c3b303b6f4c3b32463846322d48504152474f454449205954494c4942495441504d4f43204b4a433b3246384632]

/-- src/u5e/props/UnicodeData.txt lines 29953-30208. -/
def rawUcd117 : List Nat := [
0x3b3b3b3b3b4e3b3b3b3b323742363b4c3b303b6f4c3b33463846322d48504152474f454449205954494c4942495441504d4f43204b4a433b3346384632,
0x3b3b3b3b3b4e3b3b3b3b463942363b4c3b303b6f4c3b34463846322d48504152474f454449205954494c4942495441504d4f43204b4a433b3446384632,
0x3b3b3b3b3b4e3b3b3b3b414242363b4c3b303b6f4c3b35463846322d48504152474f454449205954494c4942495441504d4f43204b4a433b3546384632,
0x3b3b3b3b3b4e3b3b3b3b424242363b4c3b303b6f4c3b36463846322d48504152474f454449205954494c4942495441504d4f43204b4a433b3646384632,
0x3b3b3b3b3b4e3b3b3b3b44384133323b4c3b303b6f4c3b37463846322d48504152474f454449205954494c4942495441504d4f43204b4a433b3746384632,
0x3b3b3b3b3b4e3b3b3b3b42304431323b4c3b303b6f4c3b38463846322d48504152474f454449205954494c4942495441504d4f43204b4a433b3846384632,
0x3b3b3b3b3b4e3b3b3b3b41464133323b4c3b303b6f4c3b39463846322d48504152474f454449205954494c4942495441504d4f43204b4a433b3946384632,
0x3b3b3b3b3b4e3b3b3b3b453443363b4c3b303b6f4c3b41463846322d48504152474f454449205954494c4942495441504d4f43204b4a433b4146384632,
0x3b3b3b3b3b4e3b3b3b3b43424333323b4c3b303b6f4c3b42463846322d48504152474f454449205954494c4942495441504d4f43204b4a433b4246384632,
0x3b3b3b3b3b4e3b3b3b3b464243363b4c3b303b6f4c3b43463846322d48504152474f454449205954494c4942495441504d4f43204b4a433b4346384632,
0x3b3b3b3b3b4e3b3b3b3b444343363b4c3b303b6f4c3b44463846322d48504152474f454449205954494c4942495441504d4f43204b4a433b4446384632,
0x3b3b3b3b3b4e3b3b3b3b373643363b4c3b303b6f4c3b45463846322d48504152474f454449205954494c4942495441504d4f43204b4a433b4546384632,
0x3b3b3b3b3b4e3b3b3b3b363144363b4c3b303b6f4c3b46463846322d48504152474f454449205954494c4942495441504d4f43204b4a433b4646384632,
0x3b3b3b3b3b4e3b3b3b3b453344363b4c3b303b6f4c3b30303946322d48504152474f454449205954494c4942495441504d4f43204b4a433b3030394632,
0x3b3b3b3b3b4e3b3b3b3b373744363b4c3b303b6f4c3b31303946322d48504152474f454449205954494c4942495441504d4f43204b4a433b3130394632,
0x3b3b3b3b3b4e3b3b3b3b313444363b4c3b303b6f4c3b32303946322d48504152474f454449205954494c4942495441504d4f43204b4a433b3230394632,
0x3b3b3b3b3b4e3b3b3b3b393644363b4c3b303b6f4c3b33303946322d48504152474f454449205954494c4942495441504d4f43204b4a433b3330394632,
0x3b3b3b3b3b4e3b3b3b3b383744363b4c3b303b6f4c3b34303946322d48504152474f454449205954494c4942495441504d4f43204b4a433b3430394632,
0x3b3b3b3b3b4e3b3b3b3b353844363b4c3b303b6f4c3b35303946322d48504152474f454449205954494c4942495441504d4f43204b4a433b3530394632,
0x3b3b3b3b3b4e3b3b3b3b45314433323b4c3b303b6f4c3b36303946322d48504152474f454449205954494c4942495441504d4f43204b4a433b3630394632,
0x3b3b3b3b3b4e3b3b3b3b343344363b4c3b303b6f4c3b37303946322d48504152474f454449205954494c4942495441504d4f43204b4a433b3730394632,
0x3b3b3b3b3b4e3b3b3b3b463245363b4c3b303b6f4c3b38303946322d48504152474f454449205954494c4942495441504d4f43204b4a433b3830394632,
0x3b3b3b3b3b4e3b3b3b3b453645363b4c3b303b6f4c3b39303946322d48504152474f454449205954494c4942495441504d4f43204b4a433b3930394632,
0x3b3b3b3b3b4e3b3b3b3b333344333b4c3b303b6f4c3b41303946322d48504152474f454449205954494c4942495441504d4f43204b4a433b4130394632,
0x3b3b3b3b3b4e3b3b3b3b424345363b4c3b303b6f4c3b42303946322d48504152474f454449205954494c4942495441504d4f43204b4a433b4230394632,
0x3b3b3b3b3b4e3b3b3b3b374345363b4c3b303b6f4c3b43303946322d48504152474f454449205954494c4942495441504d4f43204b4a433b4330394632,
0x3b3b3b3b3b4e3b3b3b3b31444533323b4c3b303b6f4c3b44303946322d48504152474f454449205954494c4942495441504d4f43204b4a433b4430394632,
0x3b3b3b3b3b4e3b3b3b3b394644363b4c3b303b6f4c3b45303946322d48504152474f454449205954494c4942495441504d4f43204b4a433b4530394632,
0x3b3b3b3b3b4e3b3b3b3b453646363b4c3b303b6f4c3b46303946322d48504152474f454449205954494c4942495441504d4f43204b4a433b4630394632,
0x3b3b3b3b3b4e3b3b3b3b45354633323b4c3b303b6f4c3b30313946322d48504152474f454449205954494c4942495441504d4f43204b4a433b3031394632,
0x3b3b3b3b3b4e3b3b3b3b45384633323b4c3b303b6f4c3b31313946322d48504152474f454449205954494c4942495441504d4f43204b4a433b3131394632,
0x3b3b3b3b3b4e3b3b3b3b364346363b4c3b303b6f4c3b32313946322d48504152474f454449205954494c4942495441504d4f43204b4a433b3231394632,
0x3b3b3b3b3b4e3b3b3b3b393330373b4c3b303b6f4c3b33313946322d48504152474f454449205954494c4942495441504d4f43204b4a433b3331394632,
0x3b3b3b3b3b4e3b3b3b3b453130373b4c3b303b6f4c3b34313946322d48504152474f454449205954494c4942495441504d4f43204b4a433b3431394632,
0x3b3b3b3b3b4e3b3b3b3b423130373b4c3b303b6f4c3b35313946322d48504152474f454449205954494c4942495441504d4f43204b4a433b3531394632,
0x3b3b3b3b3b4e3b3b3b3b363944333b4c3b303b6f4c3b36313946322d48504152474f454449205954494c4942495441504d4f43204b4a433b3631394632,
0x3b3b3b3b3b4e3b3b3b3b413430373b4c3b303b6f4c3b37313946322d48504152474f454449205954494c4942495441504d4f43204b4a433b3731394632,
0x3b3b3b3b3b4e3b3b3b3b443730373b4c3b303b6f4c3b38313946322d48504152474f454449205954494c4942495441504d4f43204b4a433b3831394632,
0x3b3b3b3b3b4e3b3b3b3b373730373b4c3b303b6f4c3b39313946322d48504152474f454449205954494c4942495441504d4f43204b4a433b3931394632,
0x3b3b3b3b3b4e3b3b3b3b444130373b4c3b303b6f4c3b41313946322d48504152474f454449205954494c4942495441504d4f43204b4a433b4131394632,
0x3b3b3b3b3b4e3b3b3b3b35323530323b4c3b303b6f4c3b42313946322d48504152474f454449205954494c4942495441504d4f43204b4a433b4231394632,
0x3b3b3b3b3b4e3b3b3b3b353431373b4c3b303b6f4c3b43313946322d48504152474f454449205954494c4942495441504d4f43204b4a433b4331394632,
0x3b3b3b3b3b4e3b3b3b3b33363234323b4c3b303b6f4c3b44313946322d48504152474f454449205954494c4942495441504d4f43204b4a433b4431394632,
0x3b3b3b3b3b4e3b3b3b3b433931373b4c3b303b6f4c3b45313946322d48504152474f454449205954494c4942495441504d4f43204b4a433b4531394632,
0x3b3b3b3b3b4e3b3b3b3b42413334323b4c3b303b6f4c3b46313946322d48504152474f454449205954494c4942495441504d4f43204b4a433b4631394632,
0x3b3b3b3b3b4e3b3b3b3b383232373b4c3b303b6f4c3b30323946322d48504152474f454449205954494c4942495441504d4f43204b4a433b3032394632,
0x3b3b3b3b3b4e3b3b3b3b353332373b4c3b303b6f4c3b31323946322d48504152474f454449205954494c4942495441504d4f43204b4a433b3132394632,
0x3b3b3b3b3b4e3b3b3b3b303532373b4c3b303b6f4c3b32323946322d48504152474f454449205954494c4942495441504d4f43204b4a433b3232394632,
0x3b3b3b3b3b4e3b3b3b3b38303634323b4c3b303b6f4c3b33323946322d48504152474f454449205954494c4942495441504d4f43204b4a433b3332394632,
0x3b3b3b3b3b4e3b3b3b3b303832373b4c3b303b6f4c3b34323946322d48504152474f454449205954494c4942495441504d4f43204b4a433b3432394632,
0x3b3b3b3b3b4e3b3b3b3b353932373b4c3b303b6f4c3b35323946322d48504152474f454449205954494c4942495441504d4f43204b4a433b3532394632,
0x3b3b3b3b3b4e3b3b3b3b35333734323b4c3b303b6f4c3b36323946322d48504152474f454449205954494c4942495441504d4f43204b4a433b3632394632,
0x3b3b3b3b3b4e3b3b3b3b34313834323b4c3b303b6f4c3b37323946322d48504152474f454449205954494c4942495441504d4f43204b4a433b3732394632,
0x3b3b3b3b3b4e3b3b3b3b413733373b4c3b303b6f4c3b38323946322d48504152474f454449205954494c4942495441504d4f43204b4a433b3832394632,
0x3b3b3b3b3b4e3b3b3b3b423833373b4c3b303b6f4c3b39323946322d48504152474f454449205954494c4942495441504d4f43204b4a433b3932394632,
0x3b3b3b3b3b4e3b3b3b3b434145333b4c3b303b6f4c3b41323946322d48504152474f454449205954494c4942495441504d4f43204b4a433b4132394632,
0x3b3b3b3b3b4e3b3b3b3b354133373b4c3b303b6f4c3b42323946322d48504152474f454449205954494c4942495441504d4f43204b4a433b4232394632,
0x3b3b3b3b3b4e3b3b3b3b384245333b4c3b303b6f4c3b43323946322d48504152474f454449205954494c4942495441504d4f43204b4a433b4332394632,
0x3b3b3b3b3b4e3b3b3b3b384245333b4c3b303b6f4c3b44323946322d48504152474f454449205954494c4942495441504d4f43204b4a433b4432394632,
0x3b3b3b3b3b4e3b3b3b3b373434373b4c3b303b6f4c3b45323946322d48504152474f454449205954494c4942495441504d4f43204b4a433b4532394632,
0x3b3b3b3b3b4e3b3b3b3b433534373b4c3b303b6f4c3b46323946322d48504152474f454449205954494c4942495441504d4f43204b4a433b4632394632,
0x3b3b3b3b3b4e3b3b3b3b313734373b4c3b303b6f4c3b30333946322d48504152474f454449205954494c4942495441504d4f43204b4a433b3033394632,
0x3b3b3b3b3b4e3b3b3b3b353834373b4c3b303b6f4c3b31333946322d48504152474f454449205954494c4942495441504d4f43204b4a433b3133394632,
0x3b3b3b3b3b4e3b3b3b3b414334373b4c3b303b6f4c3b32333946322d48504152474f454449205954494c4942495441504d4f43204b4a433b3233394632,
0x3b3b3b3b3b4e3b3b3b3b423146333b4c3b303b6f4c3b33333946322d48504152474f454449205954494c4942495441504d4f43204b4a433b3333394632,
0x3b3b3b3b3b4e3b3b3b3b343235373b4c3b303b6f4c3b34333946322d48504152474f454449205954494c4942495441504d4f43204b4a433b3433394632,
0x3b3b3b3b3b4e3b3b3b3b36334334323b4c3b303b6f4c3b35333946322d48504152474f454449205954494c4942495441504d4f43204b4a433b3533394632,
0x3b3b3b3b3b4e3b3b3b3b453335373b4c3b303b6f4c3b36333946322d48504152474f454449205954494c4942495441504d4f43204b4a433b3633394632,
0x3b3b3b3b3b4e3b3b3b3b32394334323b4c3b303b6f4c3b37333946322d48504152474f454449205954494c4942495441504d4f43204b4a433b3733394632,
0x3b3b3b3b3b4e3b3b3b3b303735373b4c3b303b6f4c3b38333946322d48504152474f454449205954494c4942495441504d4f43204b4a433b3833394632,
0x3b3b3b3b3b4e3b3b3b3b46393132323b4c3b303b6f4c3b39333946322d48504152474f454449205954494c4942495441504d4f43204b4a433b3933394632,
0x3b3b3b3b3b4e3b3b3b3b303136373b4c3b303b6f4c3b41333946322d48504152474f454449205954494c4942495441504d4f43204b4a433b4133394632,
0x3b3b3b3b3b4e3b3b3b3b31414634323b4c3b303b6f4c3b42333946322d48504152474f454449205954494c4942495441504d4f43204b4a433b4233394632,
0x3b3b3b3b3b4e3b3b3b3b38424634323b4c3b303b6f4c3b43333946322d48504152474f454449205954494c4942495441504d4f43204b4a433b4333394632,
0x3b3b3b3b3b4e3b3b3b3b34343035323b4c3b303b6f4c3b44333946322d48504152474f454449205954494c4942495441504d4f43204b4a433b4433394632,
0x3b3b3b3b3b4e3b3b3b3b434646333b4c3b303b6f4c3b45333946322d48504152474f454449205954494c4942495441504d4f43204b4a433b4533394632,
0x3b3b3b3b3b4e3b3b3b3b383030343b4c3b303b6f4c3b46333946322d48504152474f454449205954494c4942495441504d4f43204b4a433b4633394632,
0x3b3b3b3b3b4e3b3b3b3b344636373b4c3b303b6f4c3b30343946322d48504152474f454449205954494c4942495441504d4f43204b4a433b3034394632,
0x3b3b3b3b3b4e3b3b3b3b33463035323b4c3b303b6f4c3b31343946322d48504152474f454449205954494c4942495441504d4f43204b4a433b3134394632,
0x3b3b3b3b3b4e3b3b3b3b32463035323b4c3b303b6f4c3b32343946322d48504152474f454449205954494c4942495441504d4f43204b4a433b3234394632,
0x3b3b3b3b3b4e3b3b3b3b39313135323b4c3b303b6f4c3b33343946322d48504152474f454449205954494c4942495441504d4f43204b4a433b3334394632,
0x3b3b3b3b3b4e3b3b3b3b33333135323b4c3b303b6f4c3b34343946322d48504152474f454449205954494c4942495441504d4f43204b4a433b3434394632,
0x3b3b3b3b3b4e3b3b3b3b453137373b4c3b303b6f4c3b35343946322d48504152474f454449205954494c4942495441504d4f43204b4a433b3534394632,
0x3b3b3b3b3b4e3b3b3b3b463137373b4c3b303b6f4c3b36343946322d48504152474f454449205954494c4942495441504d4f43204b4a433b3634394632,
0x3b3b3b3b3b4e3b3b3b3b463137373b4c3b303b6f4c3b37343946322d48504152474f454449205954494c4942495441504d4f43204b4a433b3734394632,
0x3b3b3b3b3b4e3b3b3b3b413437373b4c3b303b6f4c3b38343946322d48504152474f454449205954494c4942495441504d4f43204b4a433b3834394632,
0x3b3b3b3b3b4e3b3b3b3b393330343b4c3b303b6f4c3b39343946322d48504152474f454449205954494c4942495441504d4f43204b4a433b3934394632,
0x3b3b3b3b3b4e3b3b3b3b423837373b4c3b303b6f4c3b41343946322d48504152474f454449205954494c4942495441504d4f43204b4a433b4134394632,
0x3b3b3b3b3b4e3b3b3b3b363430343b4c3b303b6f4c3b42343946322d48504152474f454449205954494c4942495441504d4f43204b4a433b4234394632,
0x3b3b3b3b3b4e3b3b3b3b363930343b4c3b303b6f4c3b43343946322d48504152474f454449205954494c4942495441504d4f43204b4a433b4334394632,
0x3b3b3b3b3b4e3b3b3b3b44313435323b4c3b303b6f4c3b44343946322d48504152474f454449205954494c4942495441504d4f43204b4a433b4434394632,
0x3b3b3b3b3b4e3b3b3b3b453438373b4c3b303b6f4c3b45343946322d48504152474f454449205954494c4942495441504d4f43204b4a433b4534394632,
0x3b3b3b3b3b4e3b3b3b3b433838373b4c3b303b6f4c3b46343946322d48504152474f454449205954494c4942495441504d4f43204b4a433b4634394632,
0x3b3b3b3b3b4e3b3b3b3b434338373b4c3b303b6f4c3b30353946322d48504152474f454449205954494c4942495441504d4f43204b4a433b3035394632,
0x3b3b3b3b3b4e3b3b3b3b334530343b4c3b303b6f4c3b31353946322d48504152474f454449205954494c4942495441504d4f43204b4a433b3135394632,
0x3b3b3b3b3b4e3b3b3b3b36323635323b4c3b303b6f4c3b32353946322d48504152474f454449205954494c4942495441504d4f43204b4a433b3235394632,
0x3b3b3b3b3b4e3b3b3b3b363539373b4c3b303b6f4c3b33353946322d48504152474f454449205954494c4942495441504d4f43204b4a433b3335394632,
0x3b3b3b3b3b4e3b3b3b3b41393635323b4c3b303b6f4c3b34353946322d48504152474f454449205954494c4942495441504d4f43204b4a433b3435394632,
0x3b3b3b3b3b4e3b3b3b3b35433635323b4c3b303b6f4c3b35353946322d48504152474f454449205954494c4942495441504d4f43204b4a433b3535394632,
0x3b3b3b3b3b4e3b3b3b3b463839373b4c3b303b6f4c3b36353946322d48504152474f454449205954494c4942495441504d4f43204b4a433b3635394632,
0x3b3b3b3b3b4e3b3b3b3b424539373b4c3b303b6f4c3b37353946322d48504152474f454449205954494c4942495441504d4f43204b4a433b3735394632,
0x3b3b3b3b3b4e3b3b3b3b463231343b4c3b303b6f4c3b38353946322d48504152474f454449205954494c4942495441504d4f43204b4a433b3835394632,
0x3b3b3b3b3b4e3b3b3b3b303441373b4c3b303b6f4c3b39353946322d48504152474f454449205954494c4942495441504d4f43204b4a433b3935394632,
0x3b3b3b3b3b4e3b3b3b3b413441373b4c3b303b6f4c3b41353946322d48504152474f454449205954494c4942495441504d4f43204b4a433b4135394632,
0x3b3b3b3b3b4e3b3b3b3b463441373b4c3b303b6f4c3b42353946322d48504152474f454449205954494c4942495441504d4f43204b4a433b4235394632,
0x3b3b3b3b3b4e3b3b3b3b43373935323b4c3b303b6f4c3b43353946322d48504152474f454449205954494c4942495441504d4f43204b4a433b4335394632,
0x3b3b3b3b3b4e3b3b3b3b37414135323b4c3b303b6f4c3b44353946322d48504152474f454449205954494c4942495441504d4f43204b4a433b4435394632,
0x3b3b3b3b3b4e3b3b3b3b37414135323b4c3b303b6f4c3b45353946322d48504152474f454449205954494c4942495441504d4f43204b4a433b4535394632,
0x3b3b3b3b3b4e3b3b3b3b454541373b4c3b303b6f4c3b46353946322d48504152474f454449205954494c4942495441504d4f43204b4a433b4635394632,
0x3b3b3b3b3b4e3b3b3b3b323032343b4c3b303b6f4c3b30363946322d48504152474f454449205954494c4942495441504d4f43204b4a433b3036394632,
0x3b3b3b3b3b4e3b3b3b3b42414235323b4c3b303b6f4c3b31363946322d48504152474f454449205954494c4942495441504d4f43204b4a433b3136394632,
0x3b3b3b3b3b4e3b3b3b3b364342373b4c3b303b6f4c3b32363946322d48504152474f454449205954494c4942495441504d4f43204b4a433b3236394632,
0x3b3b3b3b3b4e3b3b3b3b394342373b4c3b303b6f4c3b33363946322d48504152474f454449205954494c4942495441504d4f43204b4a433b3336394632,
0x3b3b3b3b3b4e3b3b3b3b373232343b4c3b303b6f4c3b34363946322d48504152474f454449205954494c4942495441504d4f43204b4a433b3436394632,
0x3b3b3b3b3b4e3b3b3b3b30384335323b4c3b303b6f4c3b35363946322d48504152474f454449205954494c4942495441504d4f43204b4a433b3536394632,
0x3b3b3b3b3b4e3b3b3b3b324443373b4c3b303b6f4c3b36363946322d48504152474f454449205954494c4942495441504d4f43204b4a433b3636394632,
0x3b3b3b3b3b4e3b3b3b3b304132343b4c3b303b6f4c3b37363946322d48504152474f454449205954494c4942495441504d4f43204b4a433b3736394632,
0x3b3b3b3b3b4e3b3b3b3b384543373b4c3b303b6f4c3b38363946322d48504152474f454449205954494c4942495441504d4f43204b4a433b3836394632,
0x3b3b3b3b3b4e3b3b3b3b334543373b4c3b303b6f4c3b39363946322d48504152474f454449205954494c4942495441504d4f43204b4a433b3936394632,
0x3b3b3b3b3b4e3b3b3b3b303044373b4c3b303b6f4c3b41363946322d48504152474f454449205954494c4942495441504d4f43204b4a433b4136394632,
0x3b3b3b3b3b4e3b3b3b3b36384635323b4c3b303b6f4c3b42363946322d48504152474f454449205954494c4942495441504d4f43204b4a433b4236394632,
0x3b3b3b3b3b4e3b3b3b3b333644373b4c3b303b6f4c3b43363946322d48504152474f454449205954494c4942495441504d4f43204b4a433b4336394632,
0x3b3b3b3b3b4e3b3b3b3b313033343b4c3b303b6f4c3b44363946322d48504152474f454449205954494c4942495441504d4f43204b4a433b4436394632,
0x3b3b3b3b3b4e3b3b3b3b374344373b4c3b303b6f4c3b45363946322d48504152474f454449205954494c4942495441504d4f43204b4a433b4536394632,
0x3b3b3b3b3b4e3b3b3b3b323045373b4c3b303b6f4c3b46363946322d48504152474f454449205954494c4942495441504d4f43204b4a433b4636394632,
0x3b3b3b3b3b4e3b3b3b3b353445373b4c3b303b6f4c3b30373946322d48504152474f454449205954494c4942495441504d4f43204b4a433b3037394632,
0x3b3b3b3b3b4e3b3b3b3b343333343b4c3b303b6f4c3b31373946322d48504152474f454449205954494c4942495441504d4f43204b4a433b3137394632,
0x3b3b3b3b3b4e3b3b3b3b38323236323b4c3b303b6f4c3b32373946322d48504152474f454449205954494c4942495441504d4f43204b4a433b3237394632,
0x3b3b3b3b3b4e3b3b3b3b37343236323b4c3b303b6f4c3b33373946322d48504152474f454449205954494c4942495441504d4f43204b4a433b3337394632,
0x3b3b3b3b3b4e3b3b3b3b393533343b4c3b303b6f4c3b34373946322d48504152474f454449205954494c4942495441504d4f43204b4a433b3437394632,
0x3b3b3b3b3b4e3b3b3b3b39443236323b4c3b303b6f4c3b35373946322d48504152474f454449205954494c4942495441504d4f43204b4a433b3537394632,
0x3b3b3b3b3b4e3b3b3b3b413746373b4c3b303b6f4c3b36373946322d48504152474f454449205954494c4942495441504d4f43204b4a433b3637394632,
0x3b3b3b3b3b4e3b3b3b3b45333336323b4c3b303b6f4c3b37373946322d48504152474f454449205954494c4942495441504d4f43204b4a433b3737394632,
0x3b3b3b3b3b4e3b3b3b3b353946373b4c3b303b6f4c3b38373946322d48504152474f454449205954494c4942495441504d4f43204b4a433b3837394632,
0x3b3b3b3b3b4e3b3b3b3b414646373b4c3b303b6f4c3b39373946322d48504152474f454449205954494c4942495441504d4f43204b4a433b3937394632,
0x3b3b3b3b3b4e3b3b3b3b353030383b4c3b303b6f4c3b41373946322d48504152474f454449205954494c4942495441504d4f43204b4a433b4137394632,
0x3b3b3b3b3b4e3b3b3b3b41443436323b4c3b303b6f4c3b42373946322d48504152474f454449205954494c4942495441504d4f43204b4a433b4237394632,
0x3b3b3b3b3b4e3b3b3b3b33323536323b4c3b303b6f4c3b43373946322d48504152474f454449205954494c4942495441504d4f43204b4a433b4337394632,
0x3b3b3b3b3b4e3b3b3b3b303630383b4c3b303b6f4c3b44373946322d48504152474f454449205954494c4942495441504d4f43204b4a433b4437394632,
0x3b3b3b3b3b4e3b3b3b3b38413536323b4c3b303b6f4c3b45373946322d48504152474f454449205954494c4942495441504d4f43204b4a433b4537394632,
0x3b3b3b3b3b4e3b3b3b3b303730383b4c3b303b6f4c3b46373946322d48504152474f454449205954494c4942495441504d4f43204b4a433b4637394632,
0x3b3b3b3b3b4e3b3b3b3b46353333323b4c3b303b6f4c3b30383946322d48504152474f454449205954494c4942495441504d4f43204b4a433b3038394632,
0x3b3b3b3b3b4e3b3b3b3b354433343b4c3b303b6f4c3b31383946322d48504152474f454449205954494c4942495441504d4f43204b4a433b3138394632,
0x3b3b3b3b3b4e3b3b3b3b324230383b4c3b303b6f4c3b32383946322d48504152474f454449205954494c4942495441504d4f43204b4a433b3238394632,
0x3b3b3b3b3b4e3b3b3b3b333031383b4c3b303b6f4c3b33383946322d48504152474f454449205954494c4942495441504d4f43204b4a433b3338394632,
0x3b3b3b3b3b4e3b3b3b3b423034343b4c3b303b6f4c3b34383946322d48504152474f454449205954494c4942495441504d4f43204b4a433b3438394632,
0x3b3b3b3b3b4e3b3b3b3b453331383b4c3b303b6f4c3b35383946322d48504152474f454449205954494c4942495441504d4f43204b4a433b3538394632,
0x3b3b3b3b3b4e3b3b3b3b354241353b4c3b303b6f4c3b36383946322d48504152474f454449205954494c4942495441504d4f43204b4a433b3638394632,
0x3b3b3b3b3b4e3b3b3b3b37413736323b4c3b303b6f4c3b37383946322d48504152474f454449205954494c4942495441504d4f43204b4a433b3738394632,
0x3b3b3b3b3b4e3b3b3b3b35423736323b4c3b303b6f4c3b38383946322d48504152474f454449205954494c4942495441504d4f43204b4a433b3838394632,
0x3b3b3b3b3b4e3b3b3b3b33393333323b4c3b303b6f4c3b39383946322d48504152474f454449205954494c4942495441504d4f43204b4a433b3938394632,
0x3b3b3b3b3b4e3b3b3b3b43393333323b4c3b303b6f4c3b41383946322d48504152474f454449205954494c4942495441504d4f43204b4a433b4138394632,
0x3b3b3b3b3b4e3b3b3b3b313032383b4c3b303b6f4c3b42383946322d48504152474f454449205954494c4942495441504d4f43204b4a433b4238394632,
0x3b3b3b3b3b4e3b3b3b3b343032383b4c3b303b6f4c3b43383946322d48504152474f454449205954494c4942495441504d4f43204b4a433b4338394632,
0x3b3b3b3b3b4e3b3b3b3b453946383b4c3b303b6f4c3b44383946322d48504152474f454449205954494c4942495441504d4f43204b4a433b4438394632,
0x3b3b3b3b3b4e3b3b3b3b423634343b4c3b303b6f4c3b45383946322d48504152474f454449205954494c4942495441504d4f43204b4a433b4538394632,
0x3b3b3b3b3b4e3b3b3b3b313932383b4c3b303b6f4c3b46383946322d48504152474f454449205954494c4942495441504d4f43204b4a433b4638394632,
0x3b3b3b3b3b4e3b3b3b3b423832383b4c3b303b6f4c3b30393946322d48504152474f454449205954494c4942495441504d4f43204b4a433b3039394632,
0x3b3b3b3b3b4e3b3b3b3b443932383b4c3b303b6f4c3b31393946322d48504152474f454449205954494c4942495441504d4f43204b4a433b3139394632,
0x3b3b3b3b3b4e3b3b3b3b334232353b4c3b303b6f4c3b32393946322d48504152474f454449205954494c4942495441504d4f43204b4a433b3239394632,
0x3b3b3b3b3b4e3b3b3b3b314232383b4c3b303b6f4c3b33393946322d48504152474f454449205954494c4942495441504d4f43204b4a433b3339394632,
0x3b3b3b3b3b4e3b3b3b3b334232383b4c3b303b6f4c3b34393946322d48504152474f454449205954494c4942495441504d4f43204b4a433b3439394632,
0x3b3b3b3b3b4e3b3b3b3b444232383b4c3b303b6f4c3b35393946322d48504152474f454449205954494c4942495441504d4f43204b4a433b3539394632,
0x3b3b3b3b3b4e3b3b3b3b364532383b4c3b303b6f4c3b36393946322d48504152474f454449205954494c4942495441504d4f43204b4a433b3639394632,
0x3b3b3b3b3b4e3b3b3b3b43334236323b4c3b303b6f4c3b37393946322d48504152474f454449205954494c4942495441504d4f43204b4a433b3739394632,
0x3b3b3b3b3b4e3b3b3b3b354532383b4c3b303b6f4c3b38393946322d48504152474f454449205954494c4942495441504d4f43204b4a433b3839394632,
0x3b3b3b3b3b4e3b3b3b3b443133383b4c3b303b6f4c3b39393946322d48504152474f454449205954494c4942495441504d4f43204b4a433b3939394632,
0x3b3b3b3b3b4e3b3b3b3b333633383b4c3b303b6f4c3b41393946322d48504152474f454449205954494c4942495441504d4f43204b4a433b4139394632,
0x3b3b3b3b3b4e3b3b3b3b444133383b4c3b303b6f4c3b42393946322d48504152474f454449205954494c4942495441504d4f43204b4a433b4239394632,
0x3b3b3b3b3b4e3b3b3b3b333233383b4c3b303b6f4c3b43393946322d48504152474f454449205954494c4942495441504d4f43204b4a433b4339394632,
0x3b3b3b3b3b4e3b3b3b3b444233383b4c3b303b6f4c3b44393946322d48504152474f454449205954494c4942495441504d4f43204b4a433b4439394632,
0x3b3b3b3b3b4e3b3b3b3b374533383b4c3b303b6f4c3b45393946322d48504152474f454449205954494c4942495441504d4f43204b4a433b4539394632,
0x3b3b3b3b3b4e3b3b3b3b373534383b4c3b303b6f4c3b46393946322d48504152474f454449205954494c4942495441504d4f43204b4a433b4639394632,
0x3b3b3b3b3b4e3b3b3b3b333533383b4c3b303b6f4c3b30413946322d48504152474f454449205954494c4942495441504d4f43204b4a433b3041394632,
0x3b3b3b3b3b4e3b3b3b3b414333383b4c3b303b6f4c3b31413946322d48504152474f454449205954494c4942495441504d4f43204b4a433b3141394632,
0x3b3b3b3b3b4e3b3b3b3b434333383b4c3b303b6f4c3b32413946322d48504152474f454449205954494c4942495441504d4f43204b4a433b3241394632,
0x3b3b3b3b3b4e3b3b3b3b434433383b4c3b303b6f4c3b33413946322d48504152474f454449205954494c4942495441504d4f43204b4a433b3341394632,
0x3b3b3b3b3b4e3b3b3b3b36334336323b4c3b303b6f4c3b34413946322d48504152474f454449205954494c4942495441504d4f43204b4a433b3441394632,
0x3b3b3b3b3b4e3b3b3b3b42364436323b4c3b303b6f4c3b35413946322d48504152474f454449205954494c4942495441504d4f43204b4a433b3541394632,
0x3b3b3b3b3b4e3b3b3b3b35444336323b4c3b303b6f4c3b36413946322d48504152474f454449205954494c4942495441504d4f43204b4a433b3641394632,
0x3b3b3b3b3b4e3b3b3b3b423235343b4c3b303b6f4c3b37413946322d48504152474f454449205954494c4942495441504d4f43204b4a433b3741394632,
0x3b3b3b3b3b4e3b3b3b3b314634383b4c3b303b6f4c3b38413946322d48504152474f454449205954494c4942495441504d4f43204b4a433b3841394632,
0x3b3b3b3b3b4e3b3b3b3b334634383b4c3b303b6f4c3b39413946322d48504152474f454449205954494c4942495441504d4f43204b4a433b3941394632,
0x3b3b3b3b3b4e3b3b3b3b363135383b4c3b303b6f4c3b41413946322d48504152474f454449205954494c4942495441504d4f43204b4a433b4141394632,
0x3b3b3b3b3b4e3b3b3b3b41433337323b4c3b303b6f4c3b42413946322d48504152474f454449205954494c4942495441504d4f43204b4a433b4241394632,
0x3b3b3b3b3b4e3b3b3b3b343635383b4c3b303b6f4c3b43413946322d48504152474f454449205954494c4942495441504d4f43204b4a433b4341394632,
0x3b3b3b3b3b4e3b3b3b3b43324636323b4c3b303b6f4c3b44413946322d48504152474f454449205954494c4942495441504d4f43204b4a433b4441394632,
0x3b3b3b3b3b4e3b3b3b3b443535343b4c3b303b6f4c3b45413946322d48504152474f454449205954494c4942495441504d4f43204b4a433b4541394632,
0x3b3b3b3b3b4e3b3b3b3b313635343b4c3b303b6f4c3b46413946322d48504152474f454449205954494c4942495441504d4f43204b4a433b4641394632,
0x3b3b3b3b3b4e3b3b3b3b31424636323b4c3b303b6f4c3b30423946322d48504152474f454449205954494c4942495441504d4f43204b4a433b3042394632,
0x3b3b3b3b3b4e3b3b3b3b32443037323b4c3b303b6f4c3b31423946322d48504152474f454449205954494c4942495441504d4f43204b4a433b3142394632,
0x3b3b3b3b3b4e3b3b3b3b423635343b4c3b303b6f4c3b32423946322d48504152474f454449205954494c4942495441504d4f43204b4a433b3242394632,
0x3b3b3b3b3b4e3b3b3b3b303536383b4c3b303b6f4c3b33423946322d48504152474f454449205954494c4942495441504d4f43204b4a433b3342394632,
0x3b3b3b3b3b4e3b3b3b3b433536383b4c3b303b6f4c3b34423946322d48504152474f454449205954494c4942495441504d4f43204b4a433b3442394632,
0x3b3b3b3b3b4e3b3b3b3b373636383b4c3b303b6f4c3b35423946322d48504152474f454449205954494c4942495441504d4f43204b4a433b3542394632,
0x3b3b3b3b3b4e3b3b3b3b393636383b4c3b303b6f4c3b36423946322d48504152474f454449205954494c4942495441504d4f43204b4a433b3642394632,
0x3b3b3b3b3b4e3b3b3b3b394136383b4c3b303b6f4c3b37423946322d48504152474f454449205954494c4942495441504d4f43204b4a433b3742394632,
0x3b3b3b3b3b4e3b3b3b3b383836383b4c3b303b6f4c3b38423946322d48504152474f454449205954494c4942495441504d4f43204b4a433b3842394632,
0x3b3b3b3b3b4e3b3b3b3b453037383b4c3b303b6f4c3b39423946322d48504152474f454449205954494c4942495441504d4f43204b4a433b3942394632,
0x3b3b3b3b3b4e3b3b3b3b324536383b4c3b303b6f4c3b41423946322d48504152474f454449205954494c4942495441504d4f43204b4a433b4142394632,
0x3b3b3b3b3b4e3b3b3b3b393737383b4c3b303b6f4c3b42423946322d48504152474f454449205954494c4942495441504d4f43204b4a433b4242394632,
0x3b3b3b3b3b4e3b3b3b3b383237383b4c3b303b6f4c3b43423946322d48504152474f454449205954494c4942495441504d4f43204b4a433b4342394632,
0x3b3b3b3b3b4e3b3b3b3b423637383b4c3b303b6f4c3b44423946322d48504152474f454449205954494c4942495441504d4f43204b4a433b4442394632,
0x3b3b3b3b3b4e3b3b3b3b363837383b4c3b303b6f4c3b45423946322d48504152474f454449205954494c4942495441504d4f43204b4a433b4542394632,
0x3b3b3b3b3b4e3b3b3b3b374435343b4c3b303b6f4c3b46423946322d48504152474f454449205954494c4942495441504d4f43204b4a433b4642394632,
0x3b3b3b3b3b4e3b3b3b3b314537383b4c3b303b6f4c3b30433946322d48504152474f454449205954494c4942495441504d4f43204b4a433b3043394632,
0x3b3b3b3b3b4e3b3b3b3b313038383b4c3b303b6f4c3b31433946322d48504152474f454449205954494c4942495441504d4f43204b4a433b3143394632,
0x3b3b3b3b3b4e3b3b3b3b394635343b4c3b303b6f4c3b32433946322d48504152474f454449205954494c4942495441504d4f43204b4a433b3243394632,
0x3b3b3b3b3b4e3b3b3b3b303638383b4c3b303b6f4c3b33433946322d48504152474f454449205954494c4942495441504d4f43204b4a433b3343394632,
0x3b3b3b3b3b4e3b3b3b3b333638383b4c3b303b6f4c3b34433946322d48504152474f454449205954494c4942495441504d4f43204b4a433b3443394632,
0x3b3b3b3b3b4e3b3b3b3b37363637323b4c3b303b6f4c3b35433946322d48504152474f454449205954494c4942495441504d4f43204b4a433b3543394632,
0x3b3b3b3b3b4e3b3b3b3b374438383b4c3b303b6f4c3b36433946322d48504152474f454449205954494c4942495441504d4f43204b4a433b3643394632,
0x3b3b3b3b3b4e3b3b3b3b454438383b4c3b303b6f4c3b37433946322d48504152474f454449205954494c4942495441504d4f43204b4a433b3743394632,
0x3b3b3b3b3b4e3b3b3b3b353336343b4c3b303b6f4c3b38433946322d48504152474f454449205954494c4942495441504d4f43204b4a433b3843394632,
0x3b3b3b3b3b4e3b3b3b3b414638383b4c3b303b6f4c3b39433946322d48504152474f454449205954494c4942495441504d4f43204b4a433b3943394632,
0x3b3b3b3b3b4e3b3b3b3b424234333b4c3b303b6f4c3b41433946322d48504152474f454449205954494c4942495441504d4f43204b4a433b4143394632,
0x3b3b3b3b3b4e3b3b3b3b45413837323b4c3b303b6f4c3b42433946322d48504152474f454449205954494c4942495441504d4f43204b4a433b4243394632,
0x3b3b3b3b3b4e3b3b3b3b36363937323b4c3b303b6f4c3b43433946322d48504152474f454449205954494c4942495441504d4f43204b4a433b4343394632,
0x3b3b3b3b3b4e3b3b3b3b454236343b4c3b303b6f4c3b44433946322d48504152474f454449205954494c4942495441504d4f43204b4a433b4443394632,
0x3b3b3b3b3b4e3b3b3b3b374336343b4c3b303b6f4c3b45433946322d48504152474f454449205954494c4942495441504d4f43204b4a433b4543394632,
0x3b3b3b3b3b4e3b3b3b3b304141383b4c3b303b6f4c3b46433946322d48504152474f454449205954494c4942495441504d4f43204b4a433b4643394632,
0x3b3b3b3b3b4e3b3b3b3b444541383b4c3b303b6f4c3b30443946322d48504152474f454449205954494c4942495441504d4f43204b4a433b3044394632,
0x3b3b3b3b3b4e3b3b3b3b413842383b4c3b303b6f4c3b31443946322d48504152474f454449205954494c4942495441504d4f43204b4a433b3144394632,
0x3b3b3b3b3b4e3b3b3b3b353543383b4c3b303b6f4c3b32443946322d48504152474f454449205954494c4942495441504d4f43204b4a433b3244394632,
0x3b3b3b3b3b4e3b3b3b3b38414337323b4c3b303b6f4c3b33443946322d48504152474f454449205954494c4942495441504d4f43204b4a433b3344394632,
0x3b3b3b3b3b4e3b3b3b3b424143383b4c3b303b6f4c3b34443946322d48504152474f454449205954494c4942495441504d4f43204b4a433b3444394632,
0x3b3b3b3b3b4e3b3b3b3b314343383b4c3b303b6f4c3b35443946322d48504152474f454449205954494c4942495441504d4f43204b4a433b3544394632,
0x3b3b3b3b3b4e3b3b3b3b423144383b4c3b303b6f4c3b36443946322d48504152474f454449205954494c4942495441504d4f43204b4a433b3644394632,
0x3b3b3b3b3b4e3b3b3b3b373744383b4c3b303b6f4c3b37443946322d48504152474f454449205954494c4942495441504d4f43204b4a433b3744394632,
0x3b3b3b3b3b4e3b3b3b3b46324637323b4c3b303b6f4c3b38443946322d48504152474f454449205954494c4942495441504d4f43204b4a433b3844394632,
0x3b3b3b3b3b4e3b3b3b3b34303830323b4c3b303b6f4c3b39443946322d48504152474f454449205954494c4942495441504d4f43204b4a433b3944394632,
0x3b3b3b3b3b4e3b3b3b3b424344383b4c3b303b6f4c3b41443946322d48504152474f454449205954494c4942495441504d4f43204b4a433b4144394632,
0x3b3b3b3b3b4e3b3b3b3b434244383b4c3b303b6f4c3b42443946322d48504152474f454449205954494c4942495441504d4f43204b4a433b4244394632,
0x3b3b3b3b3b4e3b3b3b3b304644383b4c3b303b6f4c3b43443946322d48504152474f454449205954494c4942495441504d4f43204b4a433b4344394632,
0x3b3b3b3b3b4e3b3b3b3b45443830323b4c3b303b6f4c3b44443946322d48504152474f454449205954494c4942495441504d4f43204b4a433b4444394632,
0x3b3b3b3b3b4e3b3b3b3b344445383b4c3b303b6f4c3b45443946322d48504152474f454449205954494c4942495441504d4f43204b4a433b4544394632,
0x3b3b3b3b3b4e3b3b3b3b383346383b4c3b303b6f4c3b46443946322d48504152474f454449205954494c4942495441504d4f43204b4a433b4644394632,
0x3b3b3b3b3b4e3b3b3b3b32443538323b4c3b303b6f4c3b30453946322d48504152474f454449205954494c4942495441504d4f43204b4a433b3045394632,
0x3b3b3b3b3b4e3b3b3b3b44453538323b4c3b303b6f4c3b31453946322d48504152474f454449205954494c4942495441504d4f43204b4a433b3145394632,
0x3b3b3b3b3b4e3b3b3b3b343930393b4c3b303b6f4c3b32453946322d48504152474f454449205954494c4942495441504d4f43204b4a433b3245394632,
0x3b3b3b3b3b4e3b3b3b3b314630393b4c3b303b6f4c3b33453946322d48504152474f454449205954494c4942495441504d4f43204b4a433b3345394632,
0x3b3b3b3b3b4e3b3b3b3b313131393b4c3b303b6f4c3b34453946322d48504152474f454449205954494c4942495441504d4f43204b4a433b3445394632,
0x3b3b3b3b3b4e3b3b3b3b45323738323b4c3b303b6f4c3b35453946322d48504152474f454449205954494c4942495441504d4f43204b4a433b3545394632,
0x3b3b3b3b3b4e3b3b3b3b423131393b4c3b303b6f4c3b36453946322d48504152474f454449205954494c4942495441504d4f43204b4a433b3645394632,
0x3b3b3b3b3b4e3b3b3b3b383332393b4c3b303b6f4c3b37453946322d48504152474f454449205954494c4942495441504d4f43204b4a433b3745394632,
0x3b3b3b3b3b4e3b3b3b3b374432393b4c3b303b6f4c3b38453946322d48504152474f454449205954494c4942495441504d4f43204b4a433b3845394632,
0x3b3b3b3b3b4e3b3b3b3b384432393b4c3b303b6f4c3b39453946322d48504152474f454449205954494c4942495441504d4f43204b4a433b3945394632,
0x3b3b3b3b3b4e3b3b3b3b433732393b4c3b303b6f4c3b41453946322d48504152474f454449205954494c4942495441504d4f43204b4a433b4145394632,
0x3b3b3b3b3b4e3b3b3b3b394633393b4c3b303b6f4c3b42453946322d48504152474f454449205954494c4942495441504d4f43204b4a433b4245394632,
0x3b3b3b3b3b4e3b3b3b3b353134393b4c3b303b6f4c3b43453946322d48504152474f454449205954494c4942495441504d4f43204b4a433b4345394632,
0x3b3b3b3b3b4e3b3b3b3b41464238323b4c3b303b6f4c3b44453946322d48504152474f454449205954494c4942495441504d4f43204b4a433b4445394632,
0x3b3b3b3b3b4e3b3b3b3b423835393b4c3b303b6f4c3b45453946322d48504152474f454449205954494c4942495441504d4f43204b4a433b4545394632,
0x3b3b3b3b3b4e3b3b3b3b353939343b4c3b303b6f4c3b46453946322d48504152474f454449205954494c4942495441504d4f43204b4a433b4645394632,
0x3b3b3b3b3b4e3b3b3b3b374235393b4c3b303b6f4c3b30463946322d48504152474f454449205954494c4942495441504d4f43204b4a433b3046394632,
0x3b3b3b3b3b4e3b3b3b3b37374438323b4c3b303b6f4c3b31463946322d48504152474f454449205954494c4942495441504d4f43204b4a433b3146394632,
0x3b3b3b3b3b4e3b3b3b3b364539343b4c3b303b6f4c3b32463946322d48504152474f454449205954494c4942495441504d4f43204b4a433b3246394632]

/-- src/u5e/props/UnicodeData.txt lines 30209-30464. -/
def rawUcd118 : List Nat := [
0x3b3b3b3b3b4e3b3b3b3b334336393b4c3b303b6f4c3b33463946322d48504152474f454449205954494c4942495441504d4f43204b4a433b3346394632,
0x3b3b3b3b3b4e3b3b3b3b324244353b4c3b303b6f4c3b34463946322d48504152474f454449205954494c4942495441504d4f43204b4a433b3446394632,
0x3b3b3b3b3b4e3b3b3b3b333237393b4c3b303b6f4c3b35463946322d48504152474f454449205954494c4942495441504d4f43204b4a433b3546394632,
0x3b3b3b3b3b4e3b3b3b3b35343139323b4c3b303b6f4c3b36463946322d48504152474f454449205954494c4942495441504d4f43204b4a433b3646394632,
0x3b3b3b3b3b4e3b3b3b3b41313239323b4c3b303b6f4c3b37463946322d48504152474f454449205954494c4942495441504d4f43204b4a433b3746394632,
0x3b3b3b3b3b4e3b3b3b3b453641343b4c3b303b6f4c3b38463946322d48504152474f454449205954494c4942495441504d4f43204b4a433b3846394632,
0x3b3b3b3b3b4e3b3b3b3b363741343b4c3b303b6f4c3b39463946322d48504152474f454449205954494c4942495441504d4f43204b4a433b3946394632,
0x3b3b3b3b3b4e3b3b3b3b304537393b4c3b303b6f4c3b41463946322d48504152474f454449205954494c4942495441504d4f43204b4a433b4146394632,
0x3b3b3b3b3b4e3b3b3b3b41303439323b4c3b303b6f4c3b42463946322d48504152474f454449205954494c4942495441504d4f43204b4a433b4246394632,
0x3b3b3b3b3b4e3b3b3b3b324241343b4c3b303b6f4c3b43463946322d48504152474f454449205954494c4942495441504d4f43204b4a433b4346394632,
0x3b3b3b3b3b4e3b3b3b3b36393439323b4c3b303b6f4c3b44463946322d48504152474f454449205954494c4942495441504d4f43204b4a433b4446394632,
0x3b3b3b3b3b4e3b3b3b3b423038393b4c3b303b6f4c3b45463946322d48504152474f454449205954494c4942495441504d4f43204b4a433b4546394632,
0x3b3b3b3b3b4e3b3b3b3b423038393b4c3b303b6f4c3b46463946322d48504152474f454449205954494c4942495441504d4f43204b4a433b4646394632,
0x3b3b3b3b3b4e3b3b3b3b393238393b4c3b303b6f4c3b30304146322d48504152474f454449205954494c4942495441504d4f43204b4a433b3030414632,
0x3b3b3b3b3b4e3b3b3b3b36423539323b4c3b303b6f4c3b31304146322d48504152474f454449205954494c4942495441504d4f43204b4a433b3130414632,
0x3b3b3b3b3b4e3b3b3b3b324538393b4c3b303b6f4c3b32304146322d48504152474f454449205954494c4942495441504d4f43204b4a433b3230414632,
0x3b3b3b3b3b4e3b3b3b3b333342343b4c3b303b6f4c3b33304146322d48504152474f454449205954494c4942495441504d4f43204b4a433b3330414632,
0x3b3b3b3b3b4e3b3b3b3b393239393b4c3b303b6f4c3b34304146322d48504152474f454449205954494c4942495441504d4f43204b4a433b3430414632,
0x3b3b3b3b3b4e3b3b3b3b374139393b4c3b303b6f4c3b35304146322d48504152474f454449205954494c4942495441504d4f43204b4a433b3530414632,
0x3b3b3b3b3b4e3b3b3b3b324339393b4c3b303b6f4c3b36304146322d48504152474f454449205954494c4942495441504d4f43204b4a433b3630414632,
0x3b3b3b3b3b4e3b3b3b3b454639393b4c3b303b6f4c3b37304146322d48504152474f454449205954494c4942495441504d4f43204b4a433b3730414632,
0x3b3b3b3b3b4e3b3b3b3b454342343b4c3b303b6f4c3b38304146322d48504152474f454449205954494c4942495441504d4f43204b4a433b3830414632,
0x3b3b3b3b3b4e3b3b3b3b30334239323b4c3b303b6f4c3b39304146322d48504152474f454449205954494c4942495441504d4f43204b4a433b3930414632,
0x3b3b3b3b3b4e3b3b3b3b323142393b4c3b303b6f4c3b41304146322d48504152474f454449205954494c4942495441504d4f43204b4a433b4130414632,
0x3b3b3b3b3b4e3b3b3b3b303443393b4c3b303b6f4c3b42304146322d48504152474f454449205954494c4942495441504d4f43204b4a433b4230414632,
0x3b3b3b3b3b4e3b3b3b3b444643393b4c3b303b6f4c3b43304146322d48504152474f454449205954494c4942495441504d4f43204b4a433b4330414632,
0x3b3b3b3b3b4e3b3b3b3b454343343b4c3b303b6f4c3b44304146322d48504152474f454449205954494c4942495441504d4f43204b4a433b4430414632,
0x3b3b3b3b3b4e3b3b3b3b444543343b4c3b303b6f4c3b45304146322d48504152474f454449205954494c4942495441504d4f43204b4a433b4530414632,
0x3b3b3b3b3b4e3b3b3b3b373644393b4c3b303b6f4c3b46304146322d48504152474f454449205954494c4942495441504d4f43204b4a433b4630414632,
0x3b3b3b3b3b4e3b3b3b3b45433041323b4c3b303b6f4c3b30314146322d48504152474f454449205954494c4942495441504d4f43204b4a433b3031414632,
0x3b3b3b3b3b4e3b3b3b3b384643343b4c3b303b6f4c3b31314146322d48504152474f454449205954494c4942495441504d4f43204b4a433b3131414632,
0x3b3b3b3b3b4e3b3b3b3b35303141323b4c3b303b6f4c3b32314146322d48504152474f454449205954494c4942495441504d4f43204b4a433b3231414632,
0x3b3b3b3b3b4e3b3b3b3b45303241323b4c3b303b6f4c3b33314146322d48504152474f454449205954494c4942495441504d4f43204b4a433b3331414632,
0x3b3b3b3b3b4e3b3b3b3b31393241323b4c3b303b6f4c3b34314146322d48504152474f454449205954494c4942495441504d4f43204b4a433b3431414632,
0x3b3b3b3b3b4e3b3b3b3b424245393b4c3b303b6f4c3b35314146322d48504152474f454449205954494c4942495441504d4f43204b4a433b3531414632,
0x3b3b3b3b3b4e3b3b3b3b363544343b4c3b303b6f4c3b36314146322d48504152474f454449205954494c4942495441504d4f43204b4a433b3631414632,
0x3b3b3b3b3b4e3b3b3b3b394645393b4c3b303b6f4c3b37314146322d48504152474f454449205954494c4942495441504d4f43204b4a433b3731414632,
0x3b3b3b3b3b4e3b3b3b3b454645393b4c3b303b6f4c3b38314146322d48504152474f454449205954494c4942495441504d4f43204b4a433b3831414632,
0x3b3b3b3b3b4e3b3b3b3b353046393b4c3b303b6f4c3b39314146322d48504152474f454449205954494c4942495441504d4f43204b4a433b3931414632,
0x3b3b3b3b3b4e3b3b3b3b463046393b4c3b303b6f4c3b41314146322d48504152474f454449205954494c4942495441504d4f43204b4a433b4131414632,
0x3b3b3b3b3b4e3b3b3b3b363146393b4c3b303b6f4c3b42314146322d48504152474f454449205954494c4942495441504d4f43204b4a433b4231414632,
0x3b3b3b3b3b4e3b3b3b3b423346393b4c3b303b6f4c3b43314146322d48504152474f454449205954494c4942495441504d4f43204b4a433b4331414632,
0x3b3b3b3b3b4e3b3b3b3b30303641323b4c3b303b6f4c3b44314146322d48504152474f454449205954494c4942495441504d4f43204b4a433b4431414632,
0x3b3b3b3b3b4e3b3b3b3b3b4e423b303b66433b4741542045474155474e414c3b3130303045,
0x3b3b3b3b3b4e3b3b3b3b3b4e423b303b66433b4543415053204741543b3032303045,
0x3b3b3b3b3b4e3b3b3b3b3b4e423b303b66433b4b52414d204e4f4954414d414c435845204741543b3132303045,
0x3b3b3b3b3b4e3b3b3b3b3b4e423b303b66433b4b52414d204e4f495441544f5551204741543b3232303045,
0x3b3b3b3b3b4e3b3b3b3b3b4e423b303b66433b4e474953205245424d554e204741543b3332303045,
0x3b3b3b3b3b4e3b3b3b3b3b4e423b303b66433b4e4749532052414c4c4f44204741543b3432303045,
0x3b3b3b3b3b4e3b3b3b3b3b4e423b303b66433b4e47495320544e4543524550204741543b3532303045,
0x3b3b3b3b3b4e3b3b3b3b3b4e423b303b66433b444e41535245504d41204741543b3632303045,
0x3b3b3b3b3b4e3b3b3b3b3b4e423b303b66433b4548504f5254534f5041204741543b3732303045,
0x3b3b3b3b3b4e3b3b3b3b3b4e423b303b66433b5349534548544e45524150205446454c204741543b3832303045,
0x3b3b3b3b3b4e3b3b3b3b3b4e423b303b66433b5349534548544e45524150205448474952204741543b3932303045,
0x3b3b3b3b3b4e3b3b3b3b3b4e423b303b66433b4b53495245545341204741543b4132303045,
0x3b3b3b3b3b4e3b3b3b3b3b4e423b303b66433b4e4749532053554c50204741543b4232303045,
0x3b3b3b3b3b4e3b3b3b3b3b4e423b303b66433b414d4d4f43204741543b4332303045,
0x3b3b3b3b3b4e3b3b3b3b3b4e423b303b66433b53554e494d2d4e4548505948204741543b4432303045,
0x3b3b3b3b3b4e3b3b3b3b3b4e423b303b66433b504f5453204c4c5546204741543b4532303045,
0x3b3b3b3b3b4e3b3b3b3b3b4e423b303b66433b535544494c4f53204741543b4632303045,
0x3b3b3b3b3b4e3b3b3b3b3b4e423b303b66433b4f52455a205449474944204741543b3033303045,
0x3b3b3b3b3b4e3b3b3b3b3b4e423b303b66433b454e4f205449474944204741543b3133303045,
0x3b3b3b3b3b4e3b3b3b3b3b4e423b303b66433b4f5754205449474944204741543b3233303045,
0x3b3b3b3b3b4e3b3b3b3b3b4e423b303b66433b4545524854205449474944204741543b3333303045,
0x3b3b3b3b3b4e3b3b3b3b3b4e423b303b66433b52554f46205449474944204741543b3433303045,
0x3b3b3b3b3b4e3b3b3b3b3b4e423b303b66433b45564946205449474944204741543b3533303045,
0x3b3b3b3b3b4e3b3b3b3b3b4e423b303b66433b584953205449474944204741543b3633303045,
0x3b3b3b3b3b4e3b3b3b3b3b4e423b303b66433b4e45564553205449474944204741543b3733303045,
0x3b3b3b3b3b4e3b3b3b3b3b4e423b303b66433b5448474945205449474944204741543b3833303045,
0x3b3b3b3b3b4e3b3b3b3b3b4e423b303b66433b454e494e205449474944204741543b3933303045,
0x3b3b3b3b3b4e3b3b3b3b3b4e423b303b66433b4e4f4c4f43204741543b4133303045,
0x3b3b3b3b3b4e3b3b3b3b3b4e423b303b66433b4e4f4c4f43494d4553204741543b4233303045,
0x3b3b3b3b3b4e3b3b3b3b3b4e423b303b66433b4e474953204e4148542d5353454c204741543b4333303045,
0x3b3b3b3b3b4e3b3b3b3b3b4e423b303b66433b4e47495320534c41555145204741543b4433303045,
0x3b3b3b3b3b4e3b3b3b3b3b4e423b303b66433b4e474953204e4148542d52455441455247204741543b4533303045,
0x3b3b3b3b3b4e3b3b3b3b3b4e423b303b66433b4b52414d204e4f495453455551204741543b4633303045,
0x3b3b3b3b3b4e3b3b3b3b3b4e423b303b66433b5441204c41494352454d4d4f43204741543b3034303045,
0x3b3b3b3b3b4e3b3b3b3b3b4e423b303b66433b412052455454454c204c415449504143204e4954414c204741543b3134303045,
0x3b3b3b3b3b4e3b3b3b3b3b4e423b303b66433b422052455454454c204c415449504143204e4954414c204741543b3234303045,
0x3b3b3b3b3b4e3b3b3b3b3b4e423b303b66433b432052455454454c204c415449504143204e4954414c204741543b3334303045,
0x3b3b3b3b3b4e3b3b3b3b3b4e423b303b66433b442052455454454c204c415449504143204e4954414c204741543b3434303045,
0x3b3b3b3b3b4e3b3b3b3b3b4e423b303b66433b452052455454454c204c415449504143204e4954414c204741543b3534303045,
0x3b3b3b3b3b4e3b3b3b3b3b4e423b303b66433b462052455454454c204c415449504143204e4954414c204741543b3634303045,
0x3b3b3b3b3b4e3b3b3b3b3b4e423b303b66433b472052455454454c204c415449504143204e4954414c204741543b3734303045,
0x3b3b3b3b3b4e3b3b3b3b3b4e423b303b66433b482052455454454c204c415449504143204e4954414c204741543b3834303045,
0x3b3b3b3b3b4e3b3b3b3b3b4e423b303b66433b492052455454454c204c415449504143204e4954414c204741543b3934303045,
0x3b3b3b3b3b4e3b3b3b3b3b4e423b303b66433b4a2052455454454c204c415449504143204e4954414c204741543b4134303045,
0x3b3b3b3b3b4e3b3b3b3b3b4e423b303b66433b4b2052455454454c204c415449504143204e4954414c204741543b4234303045,
0x3b3b3b3b3b4e3b3b3b3b3b4e423b303b66433b4c2052455454454c204c415449504143204e4954414c204741543b4334303045,
0x3b3b3b3b3b4e3b3b3b3b3b4e423b303b66433b4d2052455454454c204c415449504143204e4954414c204741543b4434303045,
0x3b3b3b3b3b4e3b3b3b3b3b4e423b303b66433b4e2052455454454c204c415449504143204e4954414c204741543b4534303045,
0x3b3b3b3b3b4e3b3b3b3b3b4e423b303b66433b4f2052455454454c204c415449504143204e4954414c204741543b4634303045,
0x3b3b3b3b3b4e3b3b3b3b3b4e423b303b66433b502052455454454c204c415449504143204e4954414c204741543b3035303045,
0x3b3b3b3b3b4e3b3b3b3b3b4e423b303b66433b512052455454454c204c415449504143204e4954414c204741543b3135303045,
0x3b3b3b3b3b4e3b3b3b3b3b4e423b303b66433b522052455454454c204c415449504143204e4954414c204741543b3235303045,
0x3b3b3b3b3b4e3b3b3b3b3b4e423b303b66433b532052455454454c204c415449504143204e4954414c204741543b3335303045,
0x3b3b3b3b3b4e3b3b3b3b3b4e423b303b66433b542052455454454c204c415449504143204e4954414c204741543b3435303045,
0x3b3b3b3b3b4e3b3b3b3b3b4e423b303b66433b552052455454454c204c415449504143204e4954414c204741543b3535303045,
0x3b3b3b3b3b4e3b3b3b3b3b4e423b303b66433b562052455454454c204c415449504143204e4954414c204741543b3635303045,
0x3b3b3b3b3b4e3b3b3b3b3b4e423b303b66433b572052455454454c204c415449504143204e4954414c204741543b3735303045,
0x3b3b3b3b3b4e3b3b3b3b3b4e423b303b66433b582052455454454c204c415449504143204e4954414c204741543b3835303045,
0x3b3b3b3b3b4e3b3b3b3b3b4e423b303b66433b592052455454454c204c415449504143204e4954414c204741543b3935303045,
0x3b3b3b3b3b4e3b3b3b3b3b4e423b303b66433b5a2052455454454c204c415449504143204e4954414c204741543b4135303045,
0x3b3b3b3b3b4e3b3b3b3b3b4e423b303b66433b54454b4341524220455241555153205446454c204741543b4235303045,
0x3b3b3b3b3b4e3b3b3b3b3b4e423b303b66433b535544494c4f532045535245564552204741543b4335303045,
0x3b3b3b3b3b4e3b3b3b3b3b4e423b303b66433b54454b4341524220455241555153205448474952204741543b4435303045,
0x3b3b3b3b3b4e3b3b3b3b3b4e423b303b66433b544e454343412058454c464d5543524943204741543b4535303045,
0x3b3b3b3b3b4e3b3b3b3b3b4e423b303b66433b454e494c20574f4c204741543b4635303045,
0x3b3b3b3b3b4e3b3b3b3b3b4e423b303b66433b544e45434341204556415247204741543b3036303045,
0x3b3b3b3b3b4e3b3b3b3b3b4e423b303b66433b412052455454454c204c4c414d53204e4954414c204741543b3136303045,
0x3b3b3b3b3b4e3b3b3b3b3b4e423b303b66433b422052455454454c204c4c414d53204e4954414c204741543b3236303045,
0x3b3b3b3b3b4e3b3b3b3b3b4e423b303b66433b432052455454454c204c4c414d53204e4954414c204741543b3336303045,
0x3b3b3b3b3b4e3b3b3b3b3b4e423b303b66433b442052455454454c204c4c414d53204e4954414c204741543b3436303045,
0x3b3b3b3b3b4e3b3b3b3b3b4e423b303b66433b452052455454454c204c4c414d53204e4954414c204741543b3536303045,
0x3b3b3b3b3b4e3b3b3b3b3b4e423b303b66433b462052455454454c204c4c414d53204e4954414c204741543b3636303045,
0x3b3b3b3b3b4e3b3b3b3b3b4e423b303b66433b472052455454454c204c4c414d53204e4954414c204741543b3736303045,
0x3b3b3b3b3b4e3b3b3b3b3b4e423b303b66433b482052455454454c204c4c414d53204e4954414c204741543b3836303045,
0x3b3b3b3b3b4e3b3b3b3b3b4e423b303b66433b492052455454454c204c4c414d53204e4954414c204741543b3936303045,
0x3b3b3b3b3b4e3b3b3b3b3b4e423b303b66433b4a2052455454454c204c4c414d53204e4954414c204741543b4136303045,
0x3b3b3b3b3b4e3b3b3b3b3b4e423b303b66433b4b2052455454454c204c4c414d53204e4954414c204741543b4236303045,
0x3b3b3b3b3b4e3b3b3b3b3b4e423b303b66433b4c2052455454454c204c4c414d53204e4954414c204741543b4336303045,
0x3b3b3b3b3b4e3b3b3b3b3b4e423b303b66433b4d2052455454454c204c4c414d53204e4954414c204741543b4436303045,
0x3b3b3b3b3b4e3b3b3b3b3b4e423b303b66433b4e2052455454454c204c4c414d53204e4954414c204741543b4536303045,
0x3b3b3b3b3b4e3b3b3b3b3b4e423b303b66433b4f2052455454454c204c4c414d53204e4954414c204741543b4636303045,
0x3b3b3b3b3b4e3b3b3b3b3b4e423b303b66433b502052455454454c204c4c414d53204e4954414c204741543b3037303045,
0x3b3b3b3b3b4e3b3b3b3b3b4e423b303b66433b512052455454454c204c4c414d53204e4954414c204741543b3137303045,
0x3b3b3b3b3b4e3b3b3b3b3b4e423b303b66433b522052455454454c204c4c414d53204e4954414c204741543b3237303045,
0x3b3b3b3b3b4e3b3b3b3b3b4e423b303b66433b532052455454454c204c4c414d53204e4954414c204741543b3337303045,
0x3b3b3b3b3b4e3b3b3b3b3b4e423b303b66433b542052455454454c204c4c414d53204e4954414c204741543b3437303045,
0x3b3b3b3b3b4e3b3b3b3b3b4e423b303b66433b552052455454454c204c4c414d53204e4954414c204741543b3537303045,
0x3b3b3b3b3b4e3b3b3b3b3b4e423b303b66433b562052455454454c204c4c414d53204e4954414c204741543b3637303045,
0x3b3b3b3b3b4e3b3b3b3b3b4e423b303b66433b572052455454454c204c4c414d53204e4954414c204741543b3737303045,
0x3b3b3b3b3b4e3b3b3b3b3b4e423b303b66433b582052455454454c204c4c414d53204e4954414c204741543b3837303045,
0x3b3b3b3b3b4e3b3b3b3b3b4e423b303b66433b592052455454454c204c4c414d53204e4954414c204741543b3937303045,
0x3b3b3b3b3b4e3b3b3b3b3b4e423b303b66433b5a2052455454454c204c4c414d53204e4954414c204741543b4137303045,
0x3b3b3b3b3b4e3b3b3b3b3b4e423b303b66433b54454b4341524220594c525543205446454c204741543b4237303045,
0x3b3b3b3b3b4e3b3b3b3b3b4e423b303b66433b454e494c204c41434954524556204741543b4337303045,
0x3b3b3b3b3b4e3b3b3b3b3b4e423b303b66433b54454b4341524220594c525543205448474952204741543b4437303045,
0x3b3b3b3b3b4e3b3b3b3b3b4e423b303b66433b45444c4954204741543b4537303045,
0x3b3b3b3b3b4e3b3b3b3b3b4e423b303b66433b474154204c45434e41433b4637303045,
0x3b3b3b3b3b4e3b3b3b3b3b4d534e3b303b6e4d3b37312d524f5443454c4553204e4f495441495241563b3030313045,
0x3b3b3b3b3b4e3b3b3b3b3b4d534e3b303b6e4d3b38312d524f5443454c4553204e4f495441495241563b3130313045,
0x3b3b3b3b3b4e3b3b3b3b3b4d534e3b303b6e4d3b39312d524f5443454c4553204e4f495441495241563b3230313045,
0x3b3b3b3b3b4e3b3b3b3b3b4d534e3b303b6e4d3b30322d524f5443454c4553204e4f495441495241563b3330313045,
0x3b3b3b3b3b4e3b3b3b3b3b4d534e3b303b6e4d3b31322d524f5443454c4553204e4f495441495241563b3430313045,
0x3b3b3b3b3b4e3b3b3b3b3b4d534e3b303b6e4d3b32322d524f5443454c4553204e4f495441495241563b3530313045,
0x3b3b3b3b3b4e3b3b3b3b3b4d534e3b303b6e4d3b33322d524f5443454c4553204e4f495441495241563b3630313045,
0x3b3b3b3b3b4e3b3b3b3b3b4d534e3b303b6e4d3b34322d524f5443454c4553204e4f495441495241563b3730313045,
0x3b3b3b3b3b4e3b3b3b3b3b4d534e3b303b6e4d3b35322d524f5443454c4553204e4f495441495241563b3830313045,
0x3b3b3b3b3b4e3b3b3b3b3b4d534e3b303b6e4d3b36322d524f5443454c4553204e4f495441495241563b3930313045,
0x3b3b3b3b3b4e3b3b3b3b3b4d534e3b303b6e4d3b37322d524f5443454c4553204e4f495441495241563b4130313045,
0x3b3b3b3b3b4e3b3b3b3b3b4d534e3b303b6e4d3b38322d524f5443454c4553204e4f495441495241563b4230313045,
0x3b3b3b3b3b4e3b3b3b3b3b4d534e3b303b6e4d3b39322d524f5443454c4553204e4f495441495241563b4330313045,
0x3b3b3b3b3b4e3b3b3b3b3b4d534e3b303b6e4d3b30332d524f5443454c4553204e4f495441495241563b4430313045,
0x3b3b3b3b3b4e3b3b3b3b3b4d534e3b303b6e4d3b31332d524f5443454c4553204e4f495441495241563b4530313045,
0x3b3b3b3b3b4e3b3b3b3b3b4d534e3b303b6e4d3b32332d524f5443454c4553204e4f495441495241563b4630313045,
0x3b3b3b3b3b4e3b3b3b3b3b4d534e3b303b6e4d3b33332d524f5443454c4553204e4f495441495241563b3031313045,
0x3b3b3b3b3b4e3b3b3b3b3b4d534e3b303b6e4d3b34332d524f5443454c4553204e4f495441495241563b3131313045,
0x3b3b3b3b3b4e3b3b3b3b3b4d534e3b303b6e4d3b35332d524f5443454c4553204e4f495441495241563b3231313045,
0x3b3b3b3b3b4e3b3b3b3b3b4d534e3b303b6e4d3b36332d524f5443454c4553204e4f495441495241563b3331313045,
0x3b3b3b3b3b4e3b3b3b3b3b4d534e3b303b6e4d3b37332d524f5443454c4553204e4f495441495241563b3431313045,
0x3b3b3b3b3b4e3b3b3b3b3b4d534e3b303b6e4d3b38332d524f5443454c4553204e4f495441495241563b3531313045,
0x3b3b3b3b3b4e3b3b3b3b3b4d534e3b303b6e4d3b39332d524f5443454c4553204e4f495441495241563b3631313045,
0x3b3b3b3b3b4e3b3b3b3b3b4d534e3b303b6e4d3b30342d524f5443454c4553204e4f495441495241563b3731313045,
0x3b3b3b3b3b4e3b3b3b3b3b4d534e3b303b6e4d3b31342d524f5443454c4553204e4f495441495241563b3831313045,
0x3b3b3b3b3b4e3b3b3b3b3b4d534e3b303b6e4d3b32342d524f5443454c4553204e4f495441495241563b3931313045,
0x3b3b3b3b3b4e3b3b3b3b3b4d534e3b303b6e4d3b33342d524f5443454c4553204e4f495441495241563b4131313045,
0x3b3b3b3b3b4e3b3b3b3b3b4d534e3b303b6e4d3b34342d524f5443454c4553204e4f495441495241563b4231313045,
0x3b3b3b3b3b4e3b3b3b3b3b4d534e3b303b6e4d3b35342d524f5443454c4553204e4f495441495241563b4331313045,
0x3b3b3b3b3b4e3b3b3b3b3b4d534e3b303b6e4d3b36342d524f5443454c4553204e4f495441495241563b4431313045,
0x3b3b3b3b3b4e3b3b3b3b3b4d534e3b303b6e4d3b37342d524f5443454c4553204e4f495441495241563b4531313045,
0x3b3b3b3b3b4e3b3b3b3b3b4d534e3b303b6e4d3b38342d524f5443454c4553204e4f495441495241563b4631313045,
0x3b3b3b3b3b4e3b3b3b3b3b4d534e3b303b6e4d3b39342d524f5443454c4553204e4f495441495241563b3032313045,
0x3b3b3b3b3b4e3b3b3b3b3b4d534e3b303b6e4d3b30352d524f5443454c4553204e4f495441495241563b3132313045,
0x3b3b3b3b3b4e3b3b3b3b3b4d534e3b303b6e4d3b31352d524f5443454c4553204e4f495441495241563b3232313045,
0x3b3b3b3b3b4e3b3b3b3b3b4d534e3b303b6e4d3b32352d524f5443454c4553204e4f495441495241563b3332313045,
0x3b3b3b3b3b4e3b3b3b3b3b4d534e3b303b6e4d3b33352d524f5443454c4553204e4f495441495241563b3432313045,
0x3b3b3b3b3b4e3b3b3b3b3b4d534e3b303b6e4d3b34352d524f5443454c4553204e4f495441495241563b3532313045,
0x3b3b3b3b3b4e3b3b3b3b3b4d534e3b303b6e4d3b35352d524f5443454c4553204e4f495441495241563b3632313045,
0x3b3b3b3b3b4e3b3b3b3b3b4d534e3b303b6e4d3b36352d524f5443454c4553204e4f495441495241563b3732313045,
0x3b3b3b3b3b4e3b3b3b3b3b4d534e3b303b6e4d3b37352d524f5443454c4553204e4f495441495241563b3832313045,
0x3b3b3b3b3b4e3b3b3b3b3b4d534e3b303b6e4d3b38352d524f5443454c4553204e4f495441495241563b3932313045,
0x3b3b3b3b3b4e3b3b3b3b3b4d534e3b303b6e4d3b39352d524f5443454c4553204e4f495441495241563b4132313045,
0x3b3b3b3b3b4e3b3b3b3b3b4d534e3b303b6e4d3b30362d524f5443454c4553204e4f495441495241563b4232313045,
0x3b3b3b3b3b4e3b3b3b3b3b4d534e3b303b6e4d3b31362d524f5443454c4553204e4f495441495241563b4332313045,
0x3b3b3b3b3b4e3b3b3b3b3b4d534e3b303b6e4d3b32362d524f5443454c4553204e4f495441495241563b4432313045,
0x3b3b3b3b3b4e3b3b3b3b3b4d534e3b303b6e4d3b33362d524f5443454c4553204e4f495441495241563b4532313045,
0x3b3b3b3b3b4e3b3b3b3b3b4d534e3b303b6e4d3b34362d524f5443454c4553204e4f495441495241563b4632313045,
0x3b3b3b3b3b4e3b3b3b3b3b4d534e3b303b6e4d3b35362d524f5443454c4553204e4f495441495241563b3033313045,
0x3b3b3b3b3b4e3b3b3b3b3b4d534e3b303b6e4d3b36362d524f5443454c4553204e4f495441495241563b3133313045,
0x3b3b3b3b3b4e3b3b3b3b3b4d534e3b303b6e4d3b37362d524f5443454c4553204e4f495441495241563b3233313045,
0x3b3b3b3b3b4e3b3b3b3b3b4d534e3b303b6e4d3b38362d524f5443454c4553204e4f495441495241563b3333313045,
0x3b3b3b3b3b4e3b3b3b3b3b4d534e3b303b6e4d3b39362d524f5443454c4553204e4f495441495241563b3433313045,
0x3b3b3b3b3b4e3b3b3b3b3b4d534e3b303b6e4d3b30372d524f5443454c4553204e4f495441495241563b3533313045,
0x3b3b3b3b3b4e3b3b3b3b3b4d534e3b303b6e4d3b31372d524f5443454c4553204e4f495441495241563b3633313045,
0x3b3b3b3b3b4e3b3b3b3b3b4d534e3b303b6e4d3b32372d524f5443454c4553204e4f495441495241563b3733313045,
0x3b3b3b3b3b4e3b3b3b3b3b4d534e3b303b6e4d3b33372d524f5443454c4553204e4f495441495241563b3833313045,
0x3b3b3b3b3b4e3b3b3b3b3b4d534e3b303b6e4d3b34372d524f5443454c4553204e4f495441495241563b3933313045,
0x3b3b3b3b3b4e3b3b3b3b3b4d534e3b303b6e4d3b35372d524f5443454c4553204e4f495441495241563b4133313045,
0x3b3b3b3b3b4e3b3b3b3b3b4d534e3b303b6e4d3b36372d524f5443454c4553204e4f495441495241563b4233313045,
0x3b3b3b3b3b4e3b3b3b3b3b4d534e3b303b6e4d3b37372d524f5443454c4553204e4f495441495241563b4333313045,
0x3b3b3b3b3b4e3b3b3b3b3b4d534e3b303b6e4d3b38372d524f5443454c4553204e4f495441495241563b4433313045,
0x3b3b3b3b3b4e3b3b3b3b3b4d534e3b303b6e4d3b39372d524f5443454c4553204e4f495441495241563b4533313045,
0x3b3b3b3b3b4e3b3b3b3b3b4d534e3b303b6e4d3b30382d524f5443454c4553204e4f495441495241563b4633313045,
0x3b3b3b3b3b4e3b3b3b3b3b4d534e3b303b6e4d3b31382d524f5443454c4553204e4f495441495241563b3034313045,
0x3b3b3b3b3b4e3b3b3b3b3b4d534e3b303b6e4d3b32382d524f5443454c4553204e4f495441495241563b3134313045,
0x3b3b3b3b3b4e3b3b3b3b3b4d534e3b303b6e4d3b33382d524f5443454c4553204e4f495441495241563b3234313045,
0x3b3b3b3b3b4e3b3b3b3b3b4d534e3b303b6e4d3b34382d524f5443454c4553204e4f495441495241563b3334313045,
0x3b3b3b3b3b4e3b3b3b3b3b4d534e3b303b6e4d3b35382d524f5443454c4553204e4f495441495241563b3434313045,
0x3b3b3b3b3b4e3b3b3b3b3b4d534e3b303b6e4d3b36382d524f5443454c4553204e4f495441495241563b3534313045,
0x3b3b3b3b3b4e3b3b3b3b3b4d534e3b303b6e4d3b37382d524f5443454c4553204e4f495441495241563b3634313045,
0x3b3b3b3b3b4e3b3b3b3b3b4d534e3b303b6e4d3b38382d524f5443454c4553204e4f495441495241563b3734313045,
0x3b3b3b3b3b4e3b3b3b3b3b4d534e3b303b6e4d3b39382d524f5443454c4553204e4f495441495241563b3834313045,
0x3b3b3b3b3b4e3b3b3b3b3b4d534e3b303b6e4d3b30392d524f5443454c4553204e4f495441495241563b3934313045,
0x3b3b3b3b3b4e3b3b3b3b3b4d534e3b303b6e4d3b31392d524f5443454c4553204e4f495441495241563b4134313045,
0x3b3b3b3b3b4e3b3b3b3b3b4d534e3b303b6e4d3b32392d524f5443454c4553204e4f495441495241563b4234313045,
0x3b3b3b3b3b4e3b3b3b3b3b4d534e3b303b6e4d3b33392d524f5443454c4553204e4f495441495241563b4334313045,
0x3b3b3b3b3b4e3b3b3b3b3b4d534e3b303b6e4d3b34392d524f5443454c4553204e4f495441495241563b4434313045,
0x3b3b3b3b3b4e3b3b3b3b3b4d534e3b303b6e4d3b35392d524f5443454c4553204e4f495441495241563b4534313045,
0x3b3b3b3b3b4e3b3b3b3b3b4d534e3b303b6e4d3b36392d524f5443454c4553204e4f495441495241563b4634313045,
0x3b3b3b3b3b4e3b3b3b3b3b4d534e3b303b6e4d3b37392d524f5443454c4553204e4f495441495241563b3035313045,
0x3b3b3b3b3b4e3b3b3b3b3b4d534e3b303b6e4d3b38392d524f5443454c4553204e4f495441495241563b3135313045,
0x3b3b3b3b3b4e3b3b3b3b3b4d534e3b303b6e4d3b39392d524f5443454c4553204e4f495441495241563b3235313045,
0x3b3b3b3b3b4e3b3b3b3b3b4d534e3b303b6e4d3b3030312d524f5443454c4553204e4f495441495241563b3335313045,
0x3b3b3b3b3b4e3b3b3b3b3b4d534e3b303b6e4d3b3130312d524f5443454c4553204e4f495441495241563b3435313045,
0x3b3b3b3b3b4e3b3b3b3b3b4d534e3b303b6e4d3b3230312d524f5443454c4553204e4f495441495241563b3535313045,
0x3b3b3b3b3b4e3b3b3b3b3b4d534e3b303b6e4d3b3330312d524f5443454c4553204e4f495441495241563b3635313045,
0x3b3b3b3b3b4e3b3b3b3b3b4d534e3b303b6e4d3b3430312d524f5443454c4553204e4f495441495241563b3735313045,
0x3b3b3b3b3b4e3b3b3b3b3b4d534e3b303b6e4d3b3530312d524f5443454c4553204e4f495441495241563b3835313045,
0x3b3b3b3b3b4e3b3b3b3b3b4d534e3b303b6e4d3b3630312d524f5443454c4553204e4f495441495241563b3935313045,
0x3b3b3b3b3b4e3b3b3b3b3b4d534e3b303b6e4d3b3730312d524f5443454c4553204e4f495441495241563b4135313045,
0x3b3b3b3b3b4e3b3b3b3b3b4d534e3b303b6e4d3b3830312d524f5443454c4553204e4f495441495241563b4235313045,
0x3b3b3b3b3b4e3b3b3b3b3b4d534e3b303b6e4d3b3930312d524f5443454c4553204e4f495441495241563b4335313045,
0x3b3b3b3b3b4e3b3b3b3b3b4d534e3b303b6e4d3b3031312d524f5443454c4553204e4f495441495241563b4435313045,
0x3b3b3b3b3b4e3b3b3b3b3b4d534e3b303b6e4d3b3131312d524f5443454c4553204e4f495441495241563b4535313045,
0x3b3b3b3b3b4e3b3b3b3b3b4d534e3b303b6e4d3b3231312d524f5443454c4553204e4f495441495241563b4635313045,
0x3b3b3b3b3b4e3b3b3b3b3b4d534e3b303b6e4d3b3331312d524f5443454c4553204e4f495441495241563b3036313045,
0x3b3b3b3b3b4e3b3b3b3b3b4d534e3b303b6e4d3b3431312d524f5443454c4553204e4f495441495241563b3136313045,
0x3b3b3b3b3b4e3b3b3b3b3b4d534e3b303b6e4d3b3531312d524f5443454c4553204e4f495441495241563b3236313045,
0x3b3b3b3b3b4e3b3b3b3b3b4d534e3b303b6e4d3b3631312d524f5443454c4553204e4f495441495241563b3336313045,
0x3b3b3b3b3b4e3b3b3b3b3b4d534e3b303b6e4d3b3731312d524f5443454c4553204e4f495441495241563b3436313045,
0x3b3b3b3b3b4e3b3b3b3b3b4d534e3b303b6e4d3b3831312d524f5443454c4553204e4f495441495241563b3536313045,
0x3b3b3b3b3b4e3b3b3b3b3b4d534e3b303b6e4d3b3931312d524f5443454c4553204e4f495441495241563b3636313045,
0x3b3b3b3b3b4e3b3b3b3b3b4d534e3b303b6e4d3b3032312d524f5443454c4553204e4f495441495241563b3736313045,
0x3b3b3b3b3b4e3b3b3b3b3b4d534e3b303b6e4d3b3132312d524f5443454c4553204e4f495441495241563b3836313045,
0x3b3b3b3b3b4e3b3b3b3b3b4d534e3b303b6e4d3b3232312d524f5443454c4553204e4f495441495241563b3936313045,
0x3b3b3b3b3b4e3b3b3b3b3b4d534e3b303b6e4d3b3332312d524f5443454c4553204e4f495441495241563b4136313045,
0x3b3b3b3b3b4e3b3b3b3b3b4d534e3b303b6e4d3b3432312d524f5443454c4553204e4f495441495241563b4236313045,
0x3b3b3b3b3b4e3b3b3b3b3b4d534e3b303b6e4d3b3532312d524f5443454c4553204e4f495441495241563b4336313045,
0x3b3b3b3b3b4e3b3b3b3b3b4d534e3b303b6e4d3b3632312d524f5443454c4553204e4f495441495241563b4436313045,
0x3b3b3b3b3b4e3b3b3b3b3b4d534e3b303b6e4d3b3732312d524f5443454c4553204e4f495441495241563b4536313045,
0x3b3b3b3b3b4e3b3b3b3b3b4d534e3b303b6e4d3b3832312d524f5443454c4553204e4f495441495241563b4636313045,
0x3b3b3b3b3b4e3b3b3b3b3b4d534e3b303b6e4d3b3932312d524f5443454c4553204e4f495441495241563b3037313045,
0x3b3b3b3b3b4e3b3b3b3b3b4d534e3b303b6e4d3b3033312d524f5443454c4553204e4f495441495241563b3137313045,
0x3b3b3b3b3b4e3b3b3b3b3b4d534e3b303b6e4d3b3133312d524f5443454c4553204e4f495441495241563b3237313045,
0x3b3b3b3b3b4e3b3b3b3b3b4d534e3b303b6e4d3b3233312d524f5443454c4553204e4f495441495241563b3337313045]

/-- src/u5e/props/UnicodeData.txt lines 30465-30592. -/
def rawUcd119 : List Nat := [
0x3b3b3b3b3b4e3b3b3b3b3b4d534e3b303b6e4d3b3333312d524f5443454c4553204e4f495441495241563b3437313045,
0x3b3b3b3b3b4e3b3b3b3b3b4d534e3b303b6e4d3b3433312d524f5443454c4553204e4f495441495241563b3537313045,
0x3b3b3b3b3b4e3b3b3b3b3b4d534e3b303b6e4d3b3533312d524f5443454c4553204e4f495441495241563b3637313045,
0x3b3b3b3b3b4e3b3b3b3b3b4d534e3b303b6e4d3b3633312d524f5443454c4553204e4f495441495241563b3737313045,
0x3b3b3b3b3b4e3b3b3b3b3b4d534e3b303b6e4d3b3733312d524f5443454c4553204e4f495441495241563b3837313045,
0x3b3b3b3b3b4e3b3b3b3b3b4d534e3b303b6e4d3b3833312d524f5443454c4553204e4f495441495241563b3937313045,
0x3b3b3b3b3b4e3b3b3b3b3b4d534e3b303b6e4d3b3933312d524f5443454c4553204e4f495441495241563b4137313045,
0x3b3b3b3b3b4e3b3b3b3b3b4d534e3b303b6e4d3b3034312d524f5443454c4553204e4f495441495241563b4237313045,
0x3b3b3b3b3b4e3b3b3b3b3b4d534e3b303b6e4d3b3134312d524f5443454c4553204e4f495441495241563b4337313045,
0x3b3b3b3b3b4e3b3b3b3b3b4d534e3b303b6e4d3b3234312d524f5443454c4553204e4f495441495241563b4437313045,
0x3b3b3b3b3b4e3b3b3b3b3b4d534e3b303b6e4d3b3334312d524f5443454c4553204e4f495441495241563b4537313045,
0x3b3b3b3b3b4e3b3b3b3b3b4d534e3b303b6e4d3b3434312d524f5443454c4553204e4f495441495241563b4637313045,
0x3b3b3b3b3b4e3b3b3b3b3b4d534e3b303b6e4d3b3534312d524f5443454c4553204e4f495441495241563b3038313045,
0x3b3b3b3b3b4e3b3b3b3b3b4d534e3b303b6e4d3b3634312d524f5443454c4553204e4f495441495241563b3138313045,
0x3b3b3b3b3b4e3b3b3b3b3b4d534e3b303b6e4d3b3734312d524f5443454c4553204e4f495441495241563b3238313045,
0x3b3b3b3b3b4e3b3b3b3b3b4d534e3b303b6e4d3b3834312d524f5443454c4553204e4f495441495241563b3338313045,
0x3b3b3b3b3b4e3b3b3b3b3b4d534e3b303b6e4d3b3934312d524f5443454c4553204e4f495441495241563b3438313045,
0x3b3b3b3b3b4e3b3b3b3b3b4d534e3b303b6e4d3b3035312d524f5443454c4553204e4f495441495241563b3538313045,
0x3b3b3b3b3b4e3b3b3b3b3b4d534e3b303b6e4d3b3135312d524f5443454c4553204e4f495441495241563b3638313045,
0x3b3b3b3b3b4e3b3b3b3b3b4d534e3b303b6e4d3b3235312d524f5443454c4553204e4f495441495241563b3738313045,
0x3b3b3b3b3b4e3b3b3b3b3b4d534e3b303b6e4d3b3335312d524f5443454c4553204e4f495441495241563b3838313045,
0x3b3b3b3b3b4e3b3b3b3b3b4d534e3b303b6e4d3b3435312d524f5443454c4553204e4f495441495241563b3938313045,
0x3b3b3b3b3b4e3b3b3b3b3b4d534e3b303b6e4d3b3535312d524f5443454c4553204e4f495441495241563b4138313045,
0x3b3b3b3b3b4e3b3b3b3b3b4d534e3b303b6e4d3b3635312d524f5443454c4553204e4f495441495241563b4238313045,
0x3b3b3b3b3b4e3b3b3b3b3b4d534e3b303b6e4d3b3735312d524f5443454c4553204e4f495441495241563b4338313045,
0x3b3b3b3b3b4e3b3b3b3b3b4d534e3b303b6e4d3b3835312d524f5443454c4553204e4f495441495241563b4438313045,
0x3b3b3b3b3b4e3b3b3b3b3b4d534e3b303b6e4d3b3935312d524f5443454c4553204e4f495441495241563b4538313045,
0x3b3b3b3b3b4e3b3b3b3b3b4d534e3b303b6e4d3b3036312d524f5443454c4553204e4f495441495241563b4638313045,
0x3b3b3b3b3b4e3b3b3b3b3b4d534e3b303b6e4d3b3136312d524f5443454c4553204e4f495441495241563b3039313045,
0x3b3b3b3b3b4e3b3b3b3b3b4d534e3b303b6e4d3b3236312d524f5443454c4553204e4f495441495241563b3139313045,
0x3b3b3b3b3b4e3b3b3b3b3b4d534e3b303b6e4d3b3336312d524f5443454c4553204e4f495441495241563b3239313045,
0x3b3b3b3b3b4e3b3b3b3b3b4d534e3b303b6e4d3b3436312d524f5443454c4553204e4f495441495241563b3339313045,
0x3b3b3b3b3b4e3b3b3b3b3b4d534e3b303b6e4d3b3536312d524f5443454c4553204e4f495441495241563b3439313045,
0x3b3b3b3b3b4e3b3b3b3b3b4d534e3b303b6e4d3b3636312d524f5443454c4553204e4f495441495241563b3539313045,
0x3b3b3b3b3b4e3b3b3b3b3b4d534e3b303b6e4d3b3736312d524f5443454c4553204e4f495441495241563b3639313045,
0x3b3b3b3b3b4e3b3b3b3b3b4d534e3b303b6e4d3b3836312d524f5443454c4553204e4f495441495241563b3739313045,
0x3b3b3b3b3b4e3b3b3b3b3b4d534e3b303b6e4d3b3936312d524f5443454c4553204e4f495441495241563b3839313045,
0x3b3b3b3b3b4e3b3b3b3b3b4d534e3b303b6e4d3b3037312d524f5443454c4553204e4f495441495241563b3939313045,
0x3b3b3b3b3b4e3b3b3b3b3b4d534e3b303b6e4d3b3137312d524f5443454c4553204e4f495441495241563b4139313045,
0x3b3b3b3b3b4e3b3b3b3b3b4d534e3b303b6e4d3b3237312d524f5443454c4553204e4f495441495241563b4239313045,
0x3b3b3b3b3b4e3b3b3b3b3b4d534e3b303b6e4d3b3337312d524f5443454c4553204e4f495441495241563b4339313045,
0x3b3b3b3b3b4e3b3b3b3b3b4d534e3b303b6e4d3b3437312d524f5443454c4553204e4f495441495241563b4439313045,
0x3b3b3b3b3b4e3b3b3b3b3b4d534e3b303b6e4d3b3537312d524f5443454c4553204e4f495441495241563b4539313045,
0x3b3b3b3b3b4e3b3b3b3b3b4d534e3b303b6e4d3b3637312d524f5443454c4553204e4f495441495241563b4639313045,
0x3b3b3b3b3b4e3b3b3b3b3b4d534e3b303b6e4d3b3737312d524f5443454c4553204e4f495441495241563b3041313045,
0x3b3b3b3b3b4e3b3b3b3b3b4d534e3b303b6e4d3b3837312d524f5443454c4553204e4f495441495241563b3141313045,
0x3b3b3b3b3b4e3b3b3b3b3b4d534e3b303b6e4d3b3937312d524f5443454c4553204e4f495441495241563b3241313045,
0x3b3b3b3b3b4e3b3b3b3b3b4d534e3b303b6e4d3b3038312d524f5443454c4553204e4f495441495241563b3341313045,
0x3b3b3b3b3b4e3b3b3b3b3b4d534e3b303b6e4d3b3138312d524f5443454c4553204e4f495441495241563b3441313045,
0x3b3b3b3b3b4e3b3b3b3b3b4d534e3b303b6e4d3b3238312d524f5443454c4553204e4f495441495241563b3541313045,
0x3b3b3b3b3b4e3b3b3b3b3b4d534e3b303b6e4d3b3338312d524f5443454c4553204e4f495441495241563b3641313045,
0x3b3b3b3b3b4e3b3b3b3b3b4d534e3b303b6e4d3b3438312d524f5443454c4553204e4f495441495241563b3741313045,
0x3b3b3b3b3b4e3b3b3b3b3b4d534e3b303b6e4d3b3538312d524f5443454c4553204e4f495441495241563b3841313045,
0x3b3b3b3b3b4e3b3b3b3b3b4d534e3b303b6e4d3b3638312d524f5443454c4553204e4f495441495241563b3941313045,
0x3b3b3b3b3b4e3b3b3b3b3b4d534e3b303b6e4d3b3738312d524f5443454c4553204e4f495441495241563b4141313045,
0x3b3b3b3b3b4e3b3b3b3b3b4d534e3b303b6e4d3b3838312d524f5443454c4553204e4f495441495241563b4241313045,
0x3b3b3b3b3b4e3b3b3b3b3b4d534e3b303b6e4d3b3938312d524f5443454c4553204e4f495441495241563b4341313045,
0x3b3b3b3b3b4e3b3b3b3b3b4d534e3b303b6e4d3b3039312d524f5443454c4553204e4f495441495241563b4441313045,
0x3b3b3b3b3b4e3b3b3b3b3b4d534e3b303b6e4d3b3139312d524f5443454c4553204e4f495441495241563b4541313045,
0x3b3b3b3b3b4e3b3b3b3b3b4d534e3b303b6e4d3b3239312d524f5443454c4553204e4f495441495241563b4641313045,
0x3b3b3b3b3b4e3b3b3b3b3b4d534e3b303b6e4d3b3339312d524f5443454c4553204e4f495441495241563b3042313045,
0x3b3b3b3b3b4e3b3b3b3b3b4d534e3b303b6e4d3b3439312d524f5443454c4553204e4f495441495241563b3142313045,
0x3b3b3b3b3b4e3b3b3b3b3b4d534e3b303b6e4d3b3539312d524f5443454c4553204e4f495441495241563b3242313045,
0x3b3b3b3b3b4e3b3b3b3b3b4d534e3b303b6e4d3b3639312d524f5443454c4553204e4f495441495241563b3342313045,
0x3b3b3b3b3b4e3b3b3b3b3b4d534e3b303b6e4d3b3739312d524f5443454c4553204e4f495441495241563b3442313045,
0x3b3b3b3b3b4e3b3b3b3b3b4d534e3b303b6e4d3b3839312d524f5443454c4553204e4f495441495241563b3542313045,
0x3b3b3b3b3b4e3b3b3b3b3b4d534e3b303b6e4d3b3939312d524f5443454c4553204e4f495441495241563b3642313045,
0x3b3b3b3b3b4e3b3b3b3b3b4d534e3b303b6e4d3b3030322d524f5443454c4553204e4f495441495241563b3742313045,
0x3b3b3b3b3b4e3b3b3b3b3b4d534e3b303b6e4d3b3130322d524f5443454c4553204e4f495441495241563b3842313045,
0x3b3b3b3b3b4e3b3b3b3b3b4d534e3b303b6e4d3b3230322d524f5443454c4553204e4f495441495241563b3942313045,
0x3b3b3b3b3b4e3b3b3b3b3b4d534e3b303b6e4d3b3330322d524f5443454c4553204e4f495441495241563b4142313045,
0x3b3b3b3b3b4e3b3b3b3b3b4d534e3b303b6e4d3b3430322d524f5443454c4553204e4f495441495241563b4242313045,
0x3b3b3b3b3b4e3b3b3b3b3b4d534e3b303b6e4d3b3530322d524f5443454c4553204e4f495441495241563b4342313045,
0x3b3b3b3b3b4e3b3b3b3b3b4d534e3b303b6e4d3b3630322d524f5443454c4553204e4f495441495241563b4442313045,
0x3b3b3b3b3b4e3b3b3b3b3b4d534e3b303b6e4d3b3730322d524f5443454c4553204e4f495441495241563b4542313045,
0x3b3b3b3b3b4e3b3b3b3b3b4d534e3b303b6e4d3b3830322d524f5443454c4553204e4f495441495241563b4642313045,
0x3b3b3b3b3b4e3b3b3b3b3b4d534e3b303b6e4d3b3930322d524f5443454c4553204e4f495441495241563b3043313045,
0x3b3b3b3b3b4e3b3b3b3b3b4d534e3b303b6e4d3b3031322d524f5443454c4553204e4f495441495241563b3143313045,
0x3b3b3b3b3b4e3b3b3b3b3b4d534e3b303b6e4d3b3131322d524f5443454c4553204e4f495441495241563b3243313045,
0x3b3b3b3b3b4e3b3b3b3b3b4d534e3b303b6e4d3b3231322d524f5443454c4553204e4f495441495241563b3343313045,
0x3b3b3b3b3b4e3b3b3b3b3b4d534e3b303b6e4d3b3331322d524f5443454c4553204e4f495441495241563b3443313045,
0x3b3b3b3b3b4e3b3b3b3b3b4d534e3b303b6e4d3b3431322d524f5443454c4553204e4f495441495241563b3543313045,
0x3b3b3b3b3b4e3b3b3b3b3b4d534e3b303b6e4d3b3531322d524f5443454c4553204e4f495441495241563b3643313045,
0x3b3b3b3b3b4e3b3b3b3b3b4d534e3b303b6e4d3b3631322d524f5443454c4553204e4f495441495241563b3743313045,
0x3b3b3b3b3b4e3b3b3b3b3b4d534e3b303b6e4d3b3731322d524f5443454c4553204e4f495441495241563b3843313045,
0x3b3b3b3b3b4e3b3b3b3b3b4d534e3b303b6e4d3b3831322d524f5443454c4553204e4f495441495241563b3943313045,
0x3b3b3b3b3b4e3b3b3b3b3b4d534e3b303b6e4d3b3931322d524f5443454c4553204e4f495441495241563b4143313045,
0x3b3b3b3b3b4e3b3b3b3b3b4d534e3b303b6e4d3b3032322d524f5443454c4553204e4f495441495241563b4243313045,
0x3b3b3b3b3b4e3b3b3b3b3b4d534e3b303b6e4d3b3132322d524f5443454c4553204e4f495441495241563b4343313045,
0x3b3b3b3b3b4e3b3b3b3b3b4d534e3b303b6e4d3b3232322d524f5443454c4553204e4f495441495241563b4443313045,
0x3b3b3b3b3b4e3b3b3b3b3b4d534e3b303b6e4d3b3332322d524f5443454c4553204e4f495441495241563b4543313045,
0x3b3b3b3b3b4e3b3b3b3b3b4d534e3b303b6e4d3b3432322d524f5443454c4553204e4f495441495241563b4643313045,
0x3b3b3b3b3b4e3b3b3b3b3b4d534e3b303b6e4d3b3532322d524f5443454c4553204e4f495441495241563b3044313045,
0x3b3b3b3b3b4e3b3b3b3b3b4d534e3b303b6e4d3b3632322d524f5443454c4553204e4f495441495241563b3144313045,
0x3b3b3b3b3b4e3b3b3b3b3b4d534e3b303b6e4d3b3732322d524f5443454c4553204e4f495441495241563b3244313045,
0x3b3b3b3b3b4e3b3b3b3b3b4d534e3b303b6e4d3b3832322d524f5443454c4553204e4f495441495241563b3344313045,
0x3b3b3b3b3b4e3b3b3b3b3b4d534e3b303b6e4d3b3932322d524f5443454c4553204e4f495441495241563b3444313045,
0x3b3b3b3b3b4e3b3b3b3b3b4d534e3b303b6e4d3b3033322d524f5443454c4553204e4f495441495241563b3544313045,
0x3b3b3b3b3b4e3b3b3b3b3b4d534e3b303b6e4d3b3133322d524f5443454c4553204e4f495441495241563b3644313045,
0x3b3b3b3b3b4e3b3b3b3b3b4d534e3b303b6e4d3b3233322d524f5443454c4553204e4f495441495241563b3744313045,
0x3b3b3b3b3b4e3b3b3b3b3b4d534e3b303b6e4d3b3333322d524f5443454c4553204e4f495441495241563b3844313045,
0x3b3b3b3b3b4e3b3b3b3b3b4d534e3b303b6e4d3b3433322d524f5443454c4553204e4f495441495241563b3944313045,
0x3b3b3b3b3b4e3b3b3b3b3b4d534e3b303b6e4d3b3533322d524f5443454c4553204e4f495441495241563b4144313045,
0x3b3b3b3b3b4e3b3b3b3b3b4d534e3b303b6e4d3b3633322d524f5443454c4553204e4f495441495241563b4244313045,
0x3b3b3b3b3b4e3b3b3b3b3b4d534e3b303b6e4d3b3733322d524f5443454c4553204e4f495441495241563b4344313045,
0x3b3b3b3b3b4e3b3b3b3b3b4d534e3b303b6e4d3b3833322d524f5443454c4553204e4f495441495241563b4444313045,
0x3b3b3b3b3b4e3b3b3b3b3b4d534e3b303b6e4d3b3933322d524f5443454c4553204e4f495441495241563b4544313045,
0x3b3b3b3b3b4e3b3b3b3b3b4d534e3b303b6e4d3b3034322d524f5443454c4553204e4f495441495241563b4644313045,
0x3b3b3b3b3b4e3b3b3b3b3b4d534e3b303b6e4d3b3134322d524f5443454c4553204e4f495441495241563b3045313045,
0x3b3b3b3b3b4e3b3b3b3b3b4d534e3b303b6e4d3b3234322d524f5443454c4553204e4f495441495241563b3145313045,
0x3b3b3b3b3b4e3b3b3b3b3b4d534e3b303b6e4d3b3334322d524f5443454c4553204e4f495441495241563b3245313045,
0x3b3b3b3b3b4e3b3b3b3b3b4d534e3b303b6e4d3b3434322d524f5443454c4553204e4f495441495241563b3345313045,
0x3b3b3b3b3b4e3b3b3b3b3b4d534e3b303b6e4d3b3534322d524f5443454c4553204e4f495441495241563b3445313045,
0x3b3b3b3b3b4e3b3b3b3b3b4d534e3b303b6e4d3b3634322d524f5443454c4553204e4f495441495241563b3545313045,
0x3b3b3b3b3b4e3b3b3b3b3b4d534e3b303b6e4d3b3734322d524f5443454c4553204e4f495441495241563b3645313045,
0x3b3b3b3b3b4e3b3b3b3b3b4d534e3b303b6e4d3b3834322d524f5443454c4553204e4f495441495241563b3745313045,
0x3b3b3b3b3b4e3b3b3b3b3b4d534e3b303b6e4d3b3934322d524f5443454c4553204e4f495441495241563b3845313045,
0x3b3b3b3b3b4e3b3b3b3b3b4d534e3b303b6e4d3b3035322d524f5443454c4553204e4f495441495241563b3945313045,
0x3b3b3b3b3b4e3b3b3b3b3b4d534e3b303b6e4d3b3135322d524f5443454c4553204e4f495441495241563b4145313045,
0x3b3b3b3b3b4e3b3b3b3b3b4d534e3b303b6e4d3b3235322d524f5443454c4553204e4f495441495241563b4245313045,
0x3b3b3b3b3b4e3b3b3b3b3b4d534e3b303b6e4d3b3335322d524f5443454c4553204e4f495441495241563b4345313045,
0x3b3b3b3b3b4e3b3b3b3b3b4d534e3b303b6e4d3b3435322d524f5443454c4553204e4f495441495241563b4445313045,
0x3b3b3b3b3b4e3b3b3b3b3b4d534e3b303b6e4d3b3535322d524f5443454c4553204e4f495441495241563b4545313045,
0x3b3b3b3b3b4e3b3b3b3b3b4d534e3b303b6e4d3b3635322d524f5443454c4553204e4f495441495241563b4645313045,
0x3b3b3b3b3b4e3b3b3b3b3b4c3b303b6f433b3e7473726946202c657355206574617669725020353120656e616c503c3b3030303046,
0x3b3b3b3b3b4e3b3b3b3b3b4c3b303b6f433b3e7473614c202c657355206574617669725020353120656e616c503c3b4446464646,
0x3b3b3b3b3b4e3b3b3b3b3b4c3b303b6f433b3e7473726946202c657355206574617669725020363120656e616c503c3b303030303031,
0x3b3b3b3b3b4e3b3b3b3b3b4c3b303b6f433b3e7473614c202c657355206574617669725020363120656e616c503c3b444646463031]

end U5e.Data
