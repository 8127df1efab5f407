set_option maxRecDepth 10000
/-! GENERATED by tools/gen_raw.py: the octets of src/u5e/props/compatibility_and_canonical_decomposition_mapping_data.hpp, one number per line (little-endian). -/
namespace U5e.Data

/-- src/u5e/props/compatibility_and_canonical_decomposition_mapping_data.hpp lines 1-256. -/
def rawKdecHdr0 : List Nat := [
0x2c7d2030202c363737202c3233202c383631207b,
0x2c7d2030202c323737202c3233202c353731207b,
0x2c7d2030202c393637202c3233202c303831207b,
0x2c7d2030202c363539202c313831207b,
0x2c7d2030202c373038202c3233202c343831207b,
0x2c7d2030202c383637202c3536202c323931207b,
0x2c7d2030202c393637202c3536202c333931207b,
0x2c7d2030202c303737202c3536202c343931207b,
0x2c7d2030202c313737202c3536202c353931207b,
0x2c7d2030202c363737202c3536202c363931207b,
0x2c7d2030202c383737202c3536202c373931207b,
0x2c7d2030202c373038202c3736202c393931207b,
0x2c7d2030202c383637202c3936202c303032207b,
0x2c7d2030202c393637202c3936202c313032207b,
0x2c7d2030202c303737202c3936202c323032207b,
0x2c7d2030202c363737202c3936202c333032207b,
0x2c7d2030202c383637202c3337202c343032207b,
0x2c7d2030202c393637202c3337202c353032207b,
0x2c7d2030202c303737202c3337202c363032207b,
0x2c7d2030202c363737202c3337202c373032207b,
0x2c7d2030202c313737202c3837202c393032207b,
0x2c7d2030202c383637202c3937202c303132207b,
0x2c7d2030202c393637202c3937202c313132207b,
0x2c7d2030202c303737202c3937202c323132207b,
0x2c7d2030202c313737202c3937202c333132207b,
0x2c7d2030202c363737202c3937202c343132207b,
0x2c7d2030202c383637202c3538202c373132207b,
0x2c7d2030202c393637202c3538202c383132207b,
0x2c7d2030202c303737202c3538202c393132207b,
0x2c7d2030202c363737202c3538202c303232207b,
0x2c7d2030202c393637202c3938202c313232207b,
0x2c7d2030202c383637202c3739202c343232207b,
0x2c7d2030202c393637202c3739202c353232207b,
0x2c7d2030202c303737202c3739202c363232207b,
0x2c7d2030202c313737202c3739202c373232207b,
0x2c7d2030202c363737202c3739202c383232207b,
0x2c7d2030202c383737202c3739202c393232207b,
0x2c7d2030202c373038202c3939202c313332207b,
0x2c7d2030202c383637202c313031202c323332207b,
0x2c7d2030202c393637202c313031202c333332207b,
0x2c7d2030202c303737202c313031202c343332207b,
0x2c7d2030202c363737202c313031202c353332207b,
0x2c7d2030202c383637202c353031202c363332207b,
0x2c7d2030202c393637202c353031202c373332207b,
0x2c7d2030202c303737202c353031202c383332207b,
0x2c7d2030202c363737202c353031202c393332207b,
0x2c7d2030202c313737202c303131202c313432207b,
0x2c7d2030202c383637202c313131202c323432207b,
0x2c7d2030202c393637202c313131202c333432207b,
0x2c7d2030202c303737202c313131202c343432207b,
0x2c7d2030202c313737202c313131202c353432207b,
0x2c7d2030202c363737202c313131202c363432207b,
0x2c7d2030202c383637202c373131202c393432207b,
0x2c7d2030202c393637202c373131202c303532207b,
0x2c7d2030202c303737202c373131202c313532207b,
0x2c7d2030202c363737202c373131202c323532207b,
0x2c7d2030202c393637202c313231202c333532207b,
0x2c7d2030202c363737202c313231202c353532207b,
0x2c7d2030202c323737202c3536202c363532207b,
0x2c7d2030202c323737202c3739202c373532207b,
0x2c7d2030202c343737202c3536202c383532207b,
0x2c7d2030202c343737202c3739202c393532207b,
0x2c7d2030202c383038202c3536202c303632207b,
0x2c7d2030202c383038202c3739202c313632207b,
0x2c7d2030202c393637202c3736202c323632207b,
0x2c7d2030202c393637202c3939202c333632207b,
0x2c7d2030202c303737202c3736202c343632207b,
0x2c7d2030202c303737202c3939202c353632207b,
0x2c7d2030202c353737202c3736202c363632207b,
0x2c7d2030202c353737202c3939202c373632207b,
0x2c7d2030202c303837202c3736202c383632207b,
0x2c7d2030202c303837202c3939202c393632207b,
0x2c7d2030202c303837202c3836202c303732207b,
0x2c7d2030202c303837202c303031202c313732207b,
0x2c7d2030202c323737202c3936202c343732207b,
0x2c7d2030202c323737202c313031202c353732207b,
0x2c7d2030202c343737202c3936202c363732207b,
0x2c7d2030202c343737202c313031202c373732207b,
0x2c7d2030202c353737202c3936202c383732207b,
0x2c7d2030202c353737202c313031202c393732207b,
0x2c7d2030202c383038202c3936202c303832207b,
0x2c7d2030202c383038202c313031202c313832207b,
0x2c7d2030202c303837202c3936202c323832207b,
0x2c7d2030202c303837202c313031202c333832207b,
0x2c7d2030202c303737202c3137202c343832207b,
0x2c7d2030202c303737202c333031202c353832207b,
0x2c7d2030202c343737202c3137202c363832207b,
0x2c7d2030202c343737202c333031202c373832207b,
0x2c7d2030202c353737202c3137202c383832207b,
0x2c7d2030202c353737202c333031202c393832207b,
0x2c7d2030202c373038202c3137202c303932207b,
0x2c7d2030202c373038202c333031202c313932207b,
0x2c7d2030202c303737202c3237202c323932207b,
0x2c7d2030202c303737202c343031202c333932207b,
0x2c7d2030202c313737202c3337202c363932207b,
0x2c7d2030202c313737202c353031202c373932207b,
0x2c7d2030202c323737202c3337202c383932207b,
0x2c7d2030202c323737202c353031202c393932207b,
0x2c7d2030202c343737202c3337202c303033207b,
0x2c7d2030202c343737202c353031202c313033207b,
0x2c7d2030202c383038202c3337202c323033207b,
0x2c7d2030202c383038202c353031202c333033207b,
0x2c7d2030202c353737202c3337202c343033207b,
0x2c7d2030202c3437202c3337202c363033207b,
0x2c7d2030202c363031202c353031202c373033207b,
0x2c7d2030202c303737202c3437202c383033207b,
0x2c7d2030202c303737202c363031202c393033207b,
0x2c7d2030202c373038202c3537202c303133207b,
0x2c7d2030202c373038202c373031202c313133207b,
0x2c7d2030202c393637202c3637202c333133207b,
0x2c7d2030202c393637202c383031202c343133207b,
0x2c7d2030202c373038202c3637202c353133207b,
0x2c7d2030202c373038202c383031202c363133207b,
0x2c7d2030202c303837202c3637202c373133207b,
0x2c7d2030202c303837202c383031202c383133207b,
0x2c7d2030202c333831202c3637202c393133207b,
0x2c7d2030202c333831202c383031202c303233207b,
0x2c7d2030202c393637202c3837202c333233207b,
0x2c7d2030202c393637202c303131202c343233207b,
0x2c7d2030202c373038202c3837202c353233207b,
0x2c7d2030202c373038202c303131202c363233207b,
0x2c7d2030202c303837202c3837202c373233207b,
0x2c7d2030202c303837202c303131202c383233207b,
0x2c7d2030202c303131202c303037202c393233207b,
0x2c7d2030202c323737202c3937202c323333207b,
0x2c7d2030202c323737202c313131202c333333207b,
0x2c7d2030202c343737202c3937202c343333207b,
0x2c7d2030202c343737202c313131202c353333207b,
0x2c7d2030202c393737202c3937202c363333207b,
0x2c7d2030202c393737202c313131202c373333207b,
0x2c7d2030202c393637202c3238202c303433207b,
0x2c7d2030202c393637202c343131202c313433207b,
0x2c7d2030202c373038202c3238202c323433207b,
0x2c7d2030202c373038202c343131202c333433207b,
0x2c7d2030202c303837202c3238202c343433207b,
0x2c7d2030202c303837202c343131202c353433207b,
0x2c7d2030202c393637202c3338202c363433207b,
0x2c7d2030202c393637202c353131202c373433207b,
0x2c7d2030202c303737202c3338202c383433207b,
0x2c7d2030202c303737202c353131202c393433207b,
0x2c7d2030202c373038202c3338202c303533207b,
0x2c7d2030202c373038202c353131202c313533207b,
0x2c7d2030202c303837202c3338202c323533207b,
0x2c7d2030202c303837202c353131202c333533207b,
0x2c7d2030202c373038202c3438202c343533207b,
0x2c7d2030202c373038202c363131202c353533207b,
0x2c7d2030202c303837202c3438202c363533207b,
0x2c7d2030202c303837202c363131202c373533207b,
0x2c7d2030202c313737202c3538202c303633207b,
0x2c7d2030202c313737202c373131202c313633207b,
0x2c7d2030202c323737202c3538202c323633207b,
0x2c7d2030202c323737202c373131202c333633207b,
0x2c7d2030202c343737202c3538202c343633207b,
0x2c7d2030202c343737202c373131202c353633207b,
0x2c7d2030202c383737202c3538202c363633207b,
0x2c7d2030202c383737202c373131202c373633207b,
0x2c7d2030202c393737202c3538202c383633207b,
0x2c7d2030202c393737202c373131202c393633207b,
0x2c7d2030202c383038202c3538202c303733207b,
0x2c7d2030202c383038202c373131202c313733207b,
0x2c7d2030202c303737202c3738202c323733207b,
0x2c7d2030202c303737202c393131202c333733207b,
0x2c7d2030202c303737202c3938202c343733207b,
0x2c7d2030202c303737202c313231202c353733207b,
0x2c7d2030202c363737202c3938202c363733207b,
0x2c7d2030202c393637202c3039202c373733207b,
0x2c7d2030202c393637202c323231202c383733207b,
0x2c7d2030202c353737202c3039202c393733207b,
0x2c7d2030202c353737202c323231202c303833207b,
0x2c7d2030202c303837202c3039202c313833207b,
0x2c7d2030202c303837202c323231202c323833207b,
0x2c7d2030202c353131202c333833207b,
0x2c7d2030202c353937202c3937202c363134207b,
0x2c7d2030202c353937202c313131202c373134207b,
0x2c7d2030202c353937202c3538202c313334207b,
0x2c7d2030202c353937202c373131202c323334207b,
0x2c7d2030202c303837202c3039202c3836202c323534207b,
0x2c7d2030202c303837202c323231202c3836202c333534207b,
0x2c7d2030202c303837202c323231202c303031202c343534207b,
0x2c7d2030202c3437202c3637202c353534207b,
0x2c7d2030202c363031202c3637202c363534207b,
0x2c7d2030202c363031202c383031202c373534207b,
0x2c7d2030202c3437202c3837202c383534207b,
0x2c7d2030202c363031202c3837202c393534207b,
0x2c7d2030202c363031202c303131202c303634207b,
0x2c7d2030202c303837202c3536202c313634207b,
0x2c7d2030202c303837202c3739202c323634207b,
0x2c7d2030202c303837202c3337202c333634207b,
0x2c7d2030202c303837202c353031202c343634207b,
0x2c7d2030202c303837202c3937202c353634207b,
0x2c7d2030202c303837202c313131202c363634207b,
0x2c7d2030202c303837202c3538202c373634207b,
0x2c7d2030202c303837202c373131202c383634207b,
0x2c7d2030202c323737202c363737202c3538202c393634207b,
0x2c7d2030202c323737202c363737202c373131202c303734207b,
0x2c7d2030202c393637202c363737202c3538202c313734207b,
0x2c7d2030202c393637202c363737202c373131202c323734207b,
0x2c7d2030202c303837202c363737202c3538202c333734207b,
0x2c7d2030202c303837202c363737202c373131202c343734207b,
0x2c7d2030202c383637202c363737202c3538202c353734207b,
0x2c7d2030202c383637202c363737202c373131202c363734207b,
0x2c7d2030202c323737202c363737202c3536202c383734207b,
0x2c7d2030202c323737202c363737202c3739202c393734207b,
0x2c7d2030202c323737202c353737202c3536202c303834207b,
0x2c7d2030202c323737202c353737202c3739202c313834207b,
0x2c7d2030202c323737202c383931202c323834207b,
0x2c7d2030202c323737202c303332202c333834207b,
0x2c7d2030202c303837202c3137202c363834207b,
0x2c7d2030202c303837202c333031202c373834207b,
0x2c7d2030202c303837202c3537202c383834207b,
0x2c7d2030202c303837202c373031202c393834207b,
0x2c7d2030202c383038202c3937202c303934207b,
0x2c7d2030202c383038202c313131202c313934207b,
0x2c7d2030202c323737202c383038202c3937202c323934207b,
0x2c7d2030202c323737202c383038202c313131202c333934207b,
0x2c7d2030202c303837202c393334202c343934207b,
0x2c7d2030202c303837202c383536202c353934207b,
0x2c7d2030202c303837202c363031202c363934207b,
0x2c7d2030202c3039202c3836202c373934207b,
0x2c7d2030202c323231202c3836202c383934207b,
0x2c7d2030202c323231202c303031202c393934207b,
0x2c7d2030202c393637202c3137202c303035207b,
0x2c7d2030202c393637202c333031202c313035207b,
0x2c7d2030202c383637202c3837202c343035207b,
0x2c7d2030202c383637202c303131202c353035207b,
0x2c7d2030202c393637202c383737202c3536202c363035207b,
0x2c7d2030202c393637202c383737202c3739202c373035207b,
0x2c7d2030202c393637202c383931202c383035207b,
0x2c7d2030202c393637202c303332202c393035207b,
0x2c7d2030202c393637202c363132202c303135207b,
0x2c7d2030202c393637202c383432202c313135207b,
0x2c7d2030202c333837202c3536202c323135207b,
0x2c7d2030202c333837202c3739202c333135207b,
0x2c7d2030202c353837202c3536202c343135207b,
0x2c7d2030202c353837202c3739202c353135207b,
0x2c7d2030202c333837202c3936202c363135207b,
0x2c7d2030202c333837202c313031202c373135207b,
0x2c7d2030202c353837202c3936202c383135207b,
0x2c7d2030202c353837202c313031202c393135207b,
0x2c7d2030202c333837202c3337202c303235207b,
0x2c7d2030202c333837202c353031202c313235207b,
0x2c7d2030202c353837202c3337202c323235207b,
0x2c7d2030202c353837202c353031202c333235207b,
0x2c7d2030202c333837202c3937202c343235207b,
0x2c7d2030202c333837202c313131202c353235207b,
0x2c7d2030202c353837202c3937202c363235207b,
0x2c7d2030202c353837202c313131202c373235207b,
0x2c7d2030202c333837202c3238202c383235207b,
0x2c7d2030202c333837202c343131202c393235207b,
0x2c7d2030202c353837202c3238202c303335207b,
0x2c7d2030202c353837202c343131202c313335207b,
0x2c7d2030202c333837202c3538202c323335207b,
0x2c7d2030202c333837202c373131202c333335207b,
0x2c7d2030202c353837202c3538202c343335207b,
0x2c7d2030202c353837202c373131202c353335207b,
0x2c7d2030202c363038202c3338202c363335207b]

/-- src/u5e/props/compatibility_and_canonical_decomposition_mapping_data.hpp lines 257-512. -/
def rawKdecHdr1 : List Nat := [
0x2c7d2030202c363038202c353131202c373335207b,
0x2c7d2030202c363038202c3438202c383335207b,
0x2c7d2030202c363038202c363131202c393335207b,
0x2c7d2030202c303837202c3237202c323435207b,
0x2c7d2030202c303837202c343031202c333435207b,
0x2c7d2030202c353737202c3536202c303535207b,
0x2c7d2030202c353737202c3739202c313535207b,
0x2c7d2030202c373038202c3936202c323535207b,
0x2c7d2030202c373038202c313031202c333535207b,
0x2c7d2030202c323737202c363737202c3937202c343535207b,
0x2c7d2030202c323737202c363737202c313131202c353535207b,
0x2c7d2030202c323737202c313737202c3937202c363535207b,
0x2c7d2030202c323737202c313737202c313131202c373535207b,
0x2c7d2030202c353737202c3937202c383535207b,
0x2c7d2030202c353737202c313131202c393535207b,
0x2c7d2030202c323737202c353737202c3937202c303635207b,
0x2c7d2030202c323737202c353737202c313131202c313635207b,
0x2c7d2030202c323737202c3938202c323635207b,
0x2c7d2030202c323737202c313231202c333635207b,
0x2c7d2030202c343737202c3233202c383237207b,
0x2c7d2030202c353737202c3233202c393237207b,
0x2c7d2030202c383737202c3233202c303337207b,
0x2c7d2030202c383038202c3233202c313337207b,
0x2c7d2030202c313737202c3233202c323337207b,
0x2c7d2030202c393737202c3233202c333337207b,
0x2c7d2030202c383637202c323338207b,
0x2c7d2030202c393637202c333338207b,
0x2c7d2030202c373837202c353338207b,
0x2c7d2030202c393637202c363737202c363338207b,
0x2c7d2030202c373936202c343838207b,
0x2c7d2030202c373338202c3233202c303938207b,
0x2c7d2030202c3935202c343938207b,
0x2c7d2030202c393637202c3233202c303039207b,
0x2c7d2030202c393637202c363737202c3233202c313039207b,
0x2c7d2030202c393637202c333139202c323039207b,
0x2c7d2030202c333831202c333039207b,
0x2c7d2030202c393637202c373139202c343039207b,
0x2c7d2030202c393637202c393139202c353039207b,
0x2c7d2030202c393637202c313239202c363039207b,
0x2c7d2030202c393637202c373239202c383039207b,
0x2c7d2030202c393637202c333339202c303139207b,
0x2c7d2030202c393637202c373339202c313139207b,
0x2c7d2030202c393637202c363737202c333539202c323139207b,
0x2c7d2030202c363737202c313239202c383339207b,
0x2c7d2030202c363737202c333339202c393339207b,
0x2c7d2030202c393637202c353439202c303439207b,
0x2c7d2030202c393637202c393439202c313439207b,
0x2c7d2030202c393637202c313539202c323439207b,
0x2c7d2030202c393637202c333539202c333439207b,
0x2c7d2030202c393637202c363737202c353639202c343439207b,
0x2c7d2030202c363737202c333539202c303739207b,
0x2c7d2030202c363737202c353639202c313739207b,
0x2c7d2030202c393637202c393539202c323739207b,
0x2c7d2030202c393637202c353639202c333739207b,
0x2c7d2030202c393637202c393639202c343739207b,
0x2c7d2030202c363439202c363739207b,
0x2c7d2030202c323539202c373739207b,
0x2c7d2030202c333339202c383739207b,
0x2c7d2030202c393637202c333339202c393739207b,
0x2c7d2030202c363737202c333339202c303839207b,
0x2c7d2030202c363639202c313839207b,
0x2c7d2030202c303639202c323839207b,
0x2c7d2030202c343539202c38303031207b,
0x2c7d2030202c313639202c39303031207b,
0x2c7d2030202c323639202c30313031207b,
0x2c7d2030202c303239202c32313031207b,
0x2c7d2030202c393439202c33313031207b,
0x2c7d2030202c313339202c37313031207b,
0x2c7d2030202c383637202c35343031202c34323031207b,
0x2c7d2030202c363737202c35343031202c35323031207b,
0x2c7d2030202c393637202c33343031202c37323031207b,
0x2c7d2030202c363737202c30333031202c31333031207b,
0x2c7d2030202c393637202c30353031202c36333031207b,
0x2c7d2030202c383637202c38343031202c37333031207b,
0x2c7d2030202c343737202c39353031202c38333031207b,
0x2c7d2030202c343737202c38343031202c39343031207b,
0x2c7d2030202c343737202c30383031202c31383031207b,
0x2c7d2030202c383637202c37373031202c34303131207b,
0x2c7d2030202c363737202c37373031202c35303131207b,
0x2c7d2030202c393637202c35373031202c37303131207b,
0x2c7d2030202c363737202c30313131202c31313131207b,
0x2c7d2030202c393637202c32383031202c36313131207b,
0x2c7d2030202c383637202c30383031202c37313131207b,
0x2c7d2030202c343737202c31393031202c38313131207b,
0x2c7d2030202c333837202c30343131202c32343131207b,
0x2c7d2030202c333837202c31343131202c33343131207b,
0x2c7d2030202c343737202c36343031202c37313231207b,
0x2c7d2030202c343737202c38373031202c38313231207b,
0x2c7d2030202c343737202c30343031202c32333231207b,
0x2c7d2030202c343737202c32373031202c33333231207b,
0x2c7d2030202c363737202c30343031202c34333231207b,
0x2c7d2030202c363737202c32373031202c35333231207b,
0x2c7d2030202c343737202c35343031202c38333231207b,
0x2c7d2030202c343737202c37373031202c39333231207b,
0x2c7d2030202c363737202c30343231202c32343231207b,
0x2c7d2030202c363737202c31343231202c33343231207b,
0x2c7d2030202c363737202c36343031202c34343231207b,
0x2c7d2030202c363737202c38373031202c35343231207b,
0x2c7d2030202c363737202c37343031202c36343231207b,
0x2c7d2030202c363737202c39373031202c37343231207b,
0x2c7d2030202c323737202c38343031202c30353231207b,
0x2c7d2030202c323737202c30383031202c31353231207b,
0x2c7d2030202c363737202c38343031202c32353231207b,
0x2c7d2030202c363737202c30383031202c33353231207b,
0x2c7d2030202c363737202c34353031202c34353231207b,
0x2c7d2030202c363737202c36383031202c35353231207b,
0x2c7d2030202c363737202c36353231202c38353231207b,
0x2c7d2030202c363737202c37353231202c39353231207b,
0x2c7d2030202c363737202c39363031202c30363231207b,
0x2c7d2030202c363737202c31303131202c31363231207b,
0x2c7d2030202c323737202c39353031202c32363231207b,
0x2c7d2030202c323737202c31393031202c33363231207b,
0x2c7d2030202c363737202c39353031202c34363231207b,
0x2c7d2030202c363737202c31393031202c35363231207b,
0x2c7d2030202c393737202c39353031202c36363231207b,
0x2c7d2030202c393737202c31393031202c37363231207b,
0x2c7d2030202c363737202c33363031202c38363231207b,
0x2c7d2030202c363737202c35393031202c39363231207b,
0x2c7d2030202c363737202c37363031202c32373231207b,
0x2c7d2030202c363737202c39393031202c33373231207b,
0x2c7d2030202c30313431202c31383331202c35313431207b,
0x2c7d2030202c39313631202c35373531202c30373531207b,
0x2c7d2030202c30323631202c35373531202c31373531207b,
0x2c7d2030202c30323631202c38303631202c32373531207b,
0x2c7d2030202c31323631202c35373531202c33373531207b,
0x2c7d2030202c30323631202c30313631202c34373531207b,
0x2c7d2030202c32353631202c35373531202c33353631207b,
0x2c7d2030202c32353631202c38303631202c34353631207b,
0x2c7d2030202c32353631202c35333731202c35353631207b,
0x2c7d2030202c32353631202c30313631202c36353631207b,
0x2c7d2030202c30323631202c39343731202c38323731207b,
0x2c7d2030202c30323631202c39323731202c30333731207b,
0x2c7d2030202c30323631202c36343731202c37343731207b,
0x2c7d2030202c34363332202c34343332202c35343332207b,
0x2c7d2030202c34363332202c32353332202c33353332207b,
0x2c7d2030202c34363332202c35353332202c36353332207b,
0x2c7d2030202c34363332202c35323332202c32393332207b,
0x2c7d2030202c34363332202c36323332202c33393332207b,
0x2c7d2030202c34363332202c37323332202c34393332207b,
0x2c7d2030202c34363332202c32333332202c35393332207b,
0x2c7d2030202c34363332202c37333332202c36393332207b,
0x2c7d2030202c34363332202c38333332202c37393332207b,
0x2c7d2030202c34363332202c37343332202c38393332207b,
0x2c7d2030202c34363332202c31353332202c39393332207b,
0x2c7d2030202c34393432202c33303532202c37303532207b,
0x2c7d2030202c39313532202c33303532202c38303532207b,
0x2c7d2030202c32393432202c35363432202c34323532207b,
0x2c7d2030202c32393432202c36363432202c35323532207b,
0x2c7d2030202c32393432202c39373432202c37323532207b,
0x2c7d2030202c30323632202c30313632202c31313632207b,
0x2c7d2030202c30323632202c36313632202c34313632207b,
0x2c7d2030202c30323632202c32383532202c39343632207b,
0x2c7d2030202c30323632202c33383532202c30353632207b,
0x2c7d2030202c30323632202c38383532202c31353632207b,
0x2c7d2030202c30323632202c33303632202c34353632207b,
0x2c7d2030202c32303932202c37383832202c38383832207b,
0x2c7d2030202c38373832202c37383832202c31393832207b,
0x2c7d2030202c33303932202c37383832202c32393832207b,
0x2c7d2030202c36373832202c39343832202c38303932207b,
0x2c7d2030202c36373832202c30353832202c39303932207b,
0x2c7d2030202c31333033202c32363932202c34363932207b,
0x2c7d2030202c36303033202c34313033202c38313033207b,
0x2c7d2030202c36303033202c35313033202c39313033207b,
0x2c7d2030202c31333033202c34313033202c30323033207b,
0x2c7d2030202c38353133202c32343133202c34343133207b,
0x2c7d2030202c35383233202c33363233202c34363233207b,
0x2c7d2030202c35383233202c30373233202c31373233207b,
0x2c7d2030202c36383233202c30373233202c32373233207b,
0x2c7d2030202c36363233202c30373233202c34373233207b,
0x2c7d2030202c35383233202c36363233202c30373233202c35373233207b,
0x2c7d2030202c30393333202c38393333202c32303433207b,
0x2c7d2030202c30393333202c39393333202c33303433207b,
0x2c7d2030202c35313433202c38393333202c34303433207b,
0x2c7d2030202c30333533202c35343533202c36343533207b,
0x2c7d2030202c35333533202c35343533202c38343533207b,
0x2c7d2030202c30333533202c35333533202c35343533202c39343533207b,
0x2c7d2030202c31353533202c35343533202c30353533207b,
0x2c7d2030202c34333633202c31363633202c35333633207b,
0x2c7d2030202c32363733202c39383733202c33363733207b,
0x2c7d2030202c37333733202c35353733202c34303833207b,
0x2c7d2030202c35343733202c35353733202c35303833207b,
0x2c7d2030202c33323034202c36303933202c37303933207b,
0x2c7d2030202c33323034202c36313933202c37313933207b,
0x2c7d2030202c33323034202c31323933202c32323933207b,
0x2c7d2030202c33323034202c36323933202c37323933207b,
0x2c7d2030202c33323034202c31333933202c32333933207b,
0x2c7d2030202c31323034202c34303933202c35343933207b,
0x2c7d2030202c34353933202c33353933202c35353933207b,
0x2c7d2030202c36353933202c33353933202c37353933207b,
0x2c7d2030202c38363933202c38313034202c38353933207b,
0x2c7d2030202c38363933202c33353933202c38313034202c39353933207b,
0x2c7d2030202c38363933202c39313034202c30363933207b,
0x2c7d2030202c38363933202c33353933202c39313034202c31363933207b,
0x2c7d2030202c38363933202c33353933202c39363933207b,
0x2c7d2030202c33323034202c36383933202c37383933207b,
0x2c7d2030202c33323034202c36393933202c37393933207b,
0x2c7d2030202c33323034202c31303034202c32303034207b,
0x2c7d2030202c33323034202c36303034202c37303034207b,
0x2c7d2030202c33323034202c31313034202c32313034207b,
0x2c7d2030202c31323034202c34383933202c35323034207b,
0x2c7d2030202c32343134202c33333134202c34333134207b,
0x2c7d2030202c35363936202c37313936202c38313936207b,
0x2c7d2030202c35363936202c39313936202c30323936207b,
0x2c7d2030202c35363936202c31323936202c32323936207b,
0x2c7d2030202c35363936202c33323936202c34323936207b,
0x2c7d2030202c35363936202c35323936202c36323936207b,
0x2c7d2030202c35363936202c39323936202c30333936207b,
0x2c7d2030202c35363936202c30373936202c31373936207b,
0x2c7d2030202c35363936202c32373936202c33373936207b,
0x2c7d2030202c35363936202c34373936202c36373936207b,
0x2c7d2030202c35363936202c35373936202c37373936207b,
0x2c7d2030202c35363936202c38373936202c39373936207b,
0x2c7d2030202c353038202c3536202c30383637207b,
0x2c7d2030202c353038202c3739202c31383637207b,
0x2c7d2030202c353737202c3636202c32383637207b,
0x2c7d2030202c353737202c3839202c33383637207b,
0x2c7d2030202c333038202c3636202c34383637207b,
0x2c7d2030202c333038202c3839202c35383637207b,
0x2c7d2030202c373138202c3636202c36383637207b,
0x2c7d2030202c373138202c3839202c37383637207b,
0x2c7d2030202c393637202c373038202c3736202c38383637207b,
0x2c7d2030202c393637202c373038202c3939202c39383637207b,
0x2c7d2030202c353737202c3836202c30393637207b,
0x2c7d2030202c353737202c303031202c31393637207b,
0x2c7d2030202c333038202c3836202c32393637207b,
0x2c7d2030202c333038202c303031202c33393637207b,
0x2c7d2030202c373138202c3836202c34393637207b,
0x2c7d2030202c373138202c303031202c35393637207b,
0x2c7d2030202c373038202c3836202c36393637207b,
0x2c7d2030202c373038202c303031202c37393637207b,
0x2c7d2030202c333138202c3836202c38393637207b,
0x2c7d2030202c333138202c303031202c39393637207b,
0x2c7d2030202c383637202c323737202c3936202c30303737207b,
0x2c7d2030202c383637202c323737202c313031202c31303737207b,
0x2c7d2030202c393637202c323737202c3936202c32303737207b,
0x2c7d2030202c393637202c323737202c313031202c33303737207b,
0x2c7d2030202c333138202c3936202c34303737207b,
0x2c7d2030202c333138202c313031202c35303737207b,
0x2c7d2030202c363138202c3936202c36303737207b,
0x2c7d2030202c363138202c313031202c37303737207b,
0x2c7d2030202c343737202c373038202c3936202c38303737207b,
0x2c7d2030202c343737202c373038202c313031202c39303737207b,
0x2c7d2030202c353737202c3037202c30313737207b,
0x2c7d2030202c353737202c323031202c31313737207b,
0x2c7d2030202c323737202c3137202c32313737207b,
0x2c7d2030202c323737202c333031202c33313737207b,
0x2c7d2030202c353737202c3237202c34313737207b,
0x2c7d2030202c353737202c343031202c35313737207b,
0x2c7d2030202c333038202c3237202c36313737207b,
0x2c7d2030202c333038202c343031202c37313737207b,
0x2c7d2030202c363737202c3237202c38313737207b,
0x2c7d2030202c363737202c343031202c39313737207b,
0x2c7d2030202c373038202c3237202c30323737207b,
0x2c7d2030202c373038202c343031202c31323737207b,
0x2c7d2030202c343138202c3237202c32323737207b,
0x2c7d2030202c343138202c343031202c33323737207b]

/-- src/u5e/props/compatibility_and_canonical_decomposition_mapping_data.hpp lines 513-768. -/
def rawKdecHdr2 : List Nat := [
0x2c7d2030202c363138202c3337202c34323737207b,
0x2c7d2030202c363138202c353031202c35323737207b,
0x2c7d2030202c393637202c363737202c3337202c36323737207b,
0x2c7d2030202c393637202c363737202c353031202c37323737207b,
0x2c7d2030202c393637202c3537202c38323737207b,
0x2c7d2030202c393637202c373031202c39323737207b,
0x2c7d2030202c333038202c3537202c30333737207b,
0x2c7d2030202c333038202c373031202c31333737207b,
0x2c7d2030202c373138202c3537202c32333737207b,
0x2c7d2030202c373138202c373031202c33333737207b,
0x2c7d2030202c333038202c3637202c34333737207b,
0x2c7d2030202c333038202c383031202c35333737207b,
0x2c7d2030202c323737202c333038202c3637202c36333737207b,
0x2c7d2030202c323737202c333038202c383031202c37333737207b,
0x2c7d2030202c373138202c3637202c38333737207b,
0x2c7d2030202c373138202c383031202c39333737207b,
0x2c7d2030202c333138202c3637202c30343737207b,
0x2c7d2030202c333138202c383031202c31343737207b,
0x2c7d2030202c393637202c3737202c32343737207b,
0x2c7d2030202c393637202c393031202c33343737207b,
0x2c7d2030202c353737202c3737202c34343737207b,
0x2c7d2030202c353737202c393031202c35343737207b,
0x2c7d2030202c333038202c3737202c36343737207b,
0x2c7d2030202c333038202c393031202c37343737207b,
0x2c7d2030202c353737202c3837202c38343737207b,
0x2c7d2030202c353737202c303131202c39343737207b,
0x2c7d2030202c333038202c3837202c30353737207b,
0x2c7d2030202c333038202c303131202c31353737207b,
0x2c7d2030202c373138202c3837202c32353737207b,
0x2c7d2030202c373138202c303131202c33353737207b,
0x2c7d2030202c333138202c3837202c34353737207b,
0x2c7d2030202c333138202c303131202c35353737207b,
0x2c7d2030202c393637202c313737202c3937202c36353737207b,
0x2c7d2030202c393637202c313737202c313131202c37353737207b,
0x2c7d2030202c363737202c313737202c3937202c38353737207b,
0x2c7d2030202c363737202c313737202c313131202c39353737207b,
0x2c7d2030202c383637202c323737202c3937202c30363737207b,
0x2c7d2030202c383637202c323737202c313131202c31363737207b,
0x2c7d2030202c393637202c323737202c3937202c32363737207b,
0x2c7d2030202c393637202c323737202c313131202c33363737207b,
0x2c7d2030202c393637202c3038202c34363737207b,
0x2c7d2030202c393637202c323131202c35363737207b,
0x2c7d2030202c353737202c3038202c36363737207b,
0x2c7d2030202c353737202c323131202c37363737207b,
0x2c7d2030202c353737202c3238202c38363737207b,
0x2c7d2030202c353737202c343131202c39363737207b,
0x2c7d2030202c333038202c3238202c30373737207b,
0x2c7d2030202c333038202c343131202c31373737207b,
0x2c7d2030202c323737202c333038202c3238202c32373737207b,
0x2c7d2030202c323737202c333038202c343131202c33373737207b,
0x2c7d2030202c373138202c3238202c34373737207b,
0x2c7d2030202c373138202c343131202c35373737207b,
0x2c7d2030202c353737202c3338202c36373737207b,
0x2c7d2030202c353737202c353131202c37373737207b,
0x2c7d2030202c333038202c3338202c38373737207b,
0x2c7d2030202c333038202c353131202c39373737207b,
0x2c7d2030202c353737202c393637202c3338202c30383737207b,
0x2c7d2030202c353737202c393637202c353131202c31383737207b,
0x2c7d2030202c353737202c303837202c3338202c32383737207b,
0x2c7d2030202c353737202c303837202c353131202c33383737207b,
0x2c7d2030202c353737202c333038202c3338202c34383737207b,
0x2c7d2030202c353737202c333038202c353131202c35383737207b,
0x2c7d2030202c353737202c3438202c36383737207b,
0x2c7d2030202c353737202c363131202c37383737207b,
0x2c7d2030202c333038202c3438202c38383737207b,
0x2c7d2030202c333038202c363131202c39383737207b,
0x2c7d2030202c373138202c3438202c30393737207b,
0x2c7d2030202c373138202c363131202c31393737207b,
0x2c7d2030202c333138202c3438202c32393737207b,
0x2c7d2030202c333138202c363131202c33393737207b,
0x2c7d2030202c343038202c3538202c34393737207b,
0x2c7d2030202c343038202c373131202c35393737207b,
0x2c7d2030202c363138202c3538202c36393737207b,
0x2c7d2030202c363138202c373131202c37393737207b,
0x2c7d2030202c333138202c3538202c38393737207b,
0x2c7d2030202c333138202c373131202c39393737207b,
0x2c7d2030202c393637202c313737202c3538202c30303837207b,
0x2c7d2030202c393637202c313737202c373131202c31303837207b,
0x2c7d2030202c363737202c323737202c3538202c32303837207b,
0x2c7d2030202c363737202c323737202c373131202c33303837207b,
0x2c7d2030202c313737202c3638202c34303837207b,
0x2c7d2030202c313737202c383131202c35303837207b,
0x2c7d2030202c333038202c3638202c36303837207b,
0x2c7d2030202c333038202c383131202c37303837207b,
0x2c7d2030202c383637202c3738202c38303837207b,
0x2c7d2030202c383637202c393131202c39303837207b,
0x2c7d2030202c393637202c3738202c30313837207b,
0x2c7d2030202c393637202c393131202c31313837207b,
0x2c7d2030202c363737202c3738202c32313837207b,
0x2c7d2030202c363737202c393131202c33313837207b,
0x2c7d2030202c353737202c3738202c34313837207b,
0x2c7d2030202c353737202c393131202c35313837207b,
0x2c7d2030202c333038202c3738202c36313837207b,
0x2c7d2030202c333038202c393131202c37313837207b,
0x2c7d2030202c353737202c3838202c38313837207b,
0x2c7d2030202c353737202c303231202c39313837207b,
0x2c7d2030202c363737202c3838202c30323837207b,
0x2c7d2030202c363737202c303231202c31323837207b,
0x2c7d2030202c353737202c3938202c32323837207b,
0x2c7d2030202c353737202c313231202c33323837207b,
0x2c7d2030202c303737202c3039202c34323837207b,
0x2c7d2030202c303737202c323231202c35323837207b,
0x2c7d2030202c333038202c3039202c36323837207b,
0x2c7d2030202c333038202c323231202c37323837207b,
0x2c7d2030202c373138202c3039202c38323837207b,
0x2c7d2030202c373138202c323231202c39323837207b,
0x2c7d2030202c373138202c343031202c30333837207b,
0x2c7d2030202c363737202c363131202c31333837207b,
0x2c7d2030202c383737202c393131202c32333837207b,
0x2c7d2030202c383737202c313231202c33333837207b,
0x2c7d2030202c323037202c3739202c34333837207b,
0x2c7d2030202c353737202c353131202c35333837207b,
0x2c7d2030202c333038202c3536202c30343837207b,
0x2c7d2030202c333038202c3739202c31343837207b,
0x2c7d2030202c373737202c3536202c32343837207b,
0x2c7d2030202c373737202c3739202c33343837207b,
0x2c7d2030202c393637202c303737202c3536202c34343837207b,
0x2c7d2030202c393637202c303737202c3739202c35343837207b,
0x2c7d2030202c383637202c303737202c3536202c36343837207b,
0x2c7d2030202c383637202c303737202c3739202c37343837207b,
0x2c7d2030202c373737202c303737202c3536202c38343837207b,
0x2c7d2030202c373737202c303737202c3739202c39343837207b,
0x2c7d2030202c313737202c303737202c3536202c30353837207b,
0x2c7d2030202c313737202c303737202c3739202c31353837207b,
0x2c7d2030202c303737202c333038202c3536202c32353837207b,
0x2c7d2030202c303737202c333038202c3739202c33353837207b,
0x2c7d2030202c393637202c343737202c3536202c34353837207b,
0x2c7d2030202c393637202c343737202c3739202c35353837207b,
0x2c7d2030202c383637202c343737202c3536202c36353837207b,
0x2c7d2030202c383637202c343737202c3739202c37353837207b,
0x2c7d2030202c373737202c343737202c3536202c38353837207b,
0x2c7d2030202c373737202c343737202c3739202c39353837207b,
0x2c7d2030202c313737202c343737202c3536202c30363837207b,
0x2c7d2030202c313737202c343737202c3739202c31363837207b,
0x2c7d2030202c343737202c333038202c3536202c32363837207b,
0x2c7d2030202c343737202c333038202c3739202c33363837207b,
0x2c7d2030202c333038202c3936202c34363837207b,
0x2c7d2030202c333038202c313031202c35363837207b,
0x2c7d2030202c373737202c3936202c36363837207b,
0x2c7d2030202c373737202c313031202c37363837207b,
0x2c7d2030202c313737202c3936202c38363837207b,
0x2c7d2030202c313737202c313031202c39363837207b,
0x2c7d2030202c393637202c303737202c3936202c30373837207b,
0x2c7d2030202c393637202c303737202c313031202c31373837207b,
0x2c7d2030202c383637202c303737202c3936202c32373837207b,
0x2c7d2030202c383637202c303737202c313031202c33373837207b,
0x2c7d2030202c373737202c303737202c3936202c34373837207b,
0x2c7d2030202c373737202c303737202c313031202c35373837207b,
0x2c7d2030202c313737202c303737202c3936202c36373837207b,
0x2c7d2030202c313737202c303737202c313031202c37373837207b,
0x2c7d2030202c303737202c333038202c3936202c38373837207b,
0x2c7d2030202c303737202c333038202c313031202c39373837207b,
0x2c7d2030202c373737202c3337202c30383837207b,
0x2c7d2030202c373737202c353031202c31383837207b,
0x2c7d2030202c333038202c3337202c32383837207b,
0x2c7d2030202c333038202c353031202c33383837207b,
0x2c7d2030202c333038202c3937202c34383837207b,
0x2c7d2030202c333038202c313131202c35383837207b,
0x2c7d2030202c373737202c3937202c36383837207b,
0x2c7d2030202c373737202c313131202c37383837207b,
0x2c7d2030202c393637202c303737202c3937202c38383837207b,
0x2c7d2030202c393637202c303737202c313131202c39383837207b,
0x2c7d2030202c383637202c303737202c3937202c30393837207b,
0x2c7d2030202c383637202c303737202c313131202c31393837207b,
0x2c7d2030202c373737202c303737202c3937202c32393837207b,
0x2c7d2030202c373737202c303737202c313131202c33393837207b,
0x2c7d2030202c313737202c303737202c3937202c34393837207b,
0x2c7d2030202c313737202c303737202c313131202c35393837207b,
0x2c7d2030202c303737202c333038202c3937202c36393837207b,
0x2c7d2030202c303737202c333038202c313131202c37393837207b,
0x2c7d2030202c393637202c353937202c3937202c38393837207b,
0x2c7d2030202c393637202c353937202c313131202c39393837207b,
0x2c7d2030202c383637202c353937202c3937202c30303937207b,
0x2c7d2030202c383637202c353937202c313131202c31303937207b,
0x2c7d2030202c373737202c353937202c3937202c32303937207b,
0x2c7d2030202c373737202c353937202c313131202c33303937207b,
0x2c7d2030202c313737202c353937202c3937202c34303937207b,
0x2c7d2030202c313737202c353937202c313131202c35303937207b,
0x2c7d2030202c333038202c353937202c3937202c36303937207b,
0x2c7d2030202c333038202c353937202c313131202c37303937207b,
0x2c7d2030202c333038202c3538202c38303937207b,
0x2c7d2030202c333038202c373131202c39303937207b,
0x2c7d2030202c373737202c3538202c30313937207b,
0x2c7d2030202c373737202c373131202c31313937207b,
0x2c7d2030202c393637202c353937202c3538202c32313937207b,
0x2c7d2030202c393637202c353937202c373131202c33313937207b,
0x2c7d2030202c383637202c353937202c3538202c34313937207b,
0x2c7d2030202c383637202c353937202c373131202c35313937207b,
0x2c7d2030202c373737202c353937202c3538202c36313937207b,
0x2c7d2030202c373737202c353937202c373131202c37313937207b,
0x2c7d2030202c313737202c353937202c3538202c38313937207b,
0x2c7d2030202c313737202c353937202c373131202c39313937207b,
0x2c7d2030202c333038202c353937202c3538202c30323937207b,
0x2c7d2030202c333038202c353937202c373131202c31323937207b,
0x2c7d2030202c383637202c3938202c32323937207b,
0x2c7d2030202c383637202c313231202c33323937207b,
0x2c7d2030202c333038202c3938202c34323937207b,
0x2c7d2030202c333038202c313231202c35323937207b,
0x2c7d2030202c373737202c3938202c36323937207b,
0x2c7d2030202c373737202c313231202c37323937207b,
0x2c7d2030202c313737202c3938202c38323937207b,
0x2c7d2030202c313737202c313231202c39323937207b,
0x2c7d2030202c373837202c353439202c36333937207b,
0x2c7d2030202c383837202c353439202c37333937207b,
0x2c7d2030202c383637202c373837202c353439202c38333937207b,
0x2c7d2030202c383637202c383837202c353439202c39333937207b,
0x2c7d2030202c393637202c373837202c353439202c30343937207b,
0x2c7d2030202c393637202c383837202c353439202c31343937207b,
0x2c7d2030202c343338202c373837202c353439202c32343937207b,
0x2c7d2030202c343338202c383837202c353439202c33343937207b,
0x2c7d2030202c373837202c333139202c34343937207b,
0x2c7d2030202c383837202c333139202c35343937207b,
0x2c7d2030202c383637202c373837202c333139202c36343937207b,
0x2c7d2030202c383637202c383837202c333139202c37343937207b,
0x2c7d2030202c393637202c373837202c333139202c38343937207b,
0x2c7d2030202c393637202c383837202c333139202c39343937207b,
0x2c7d2030202c343338202c373837202c333139202c30353937207b,
0x2c7d2030202c343338202c383837202c333139202c31353937207b,
0x2c7d2030202c373837202c393439202c32353937207b,
0x2c7d2030202c383837202c393439202c33353937207b,
0x2c7d2030202c383637202c373837202c393439202c34353937207b,
0x2c7d2030202c383637202c383837202c393439202c35353937207b,
0x2c7d2030202c393637202c373837202c393439202c36353937207b,
0x2c7d2030202c393637202c383837202c393439202c37353937207b,
0x2c7d2030202c373837202c373139202c30363937207b,
0x2c7d2030202c383837202c373139202c31363937207b,
0x2c7d2030202c383637202c373837202c373139202c32363937207b,
0x2c7d2030202c383637202c383837202c373139202c33363937207b,
0x2c7d2030202c393637202c373837202c373139202c34363937207b,
0x2c7d2030202c393637202c383837202c373139202c35363937207b,
0x2c7d2030202c373837202c313539202c38363937207b,
0x2c7d2030202c383837202c313539202c39363937207b,
0x2c7d2030202c383637202c373837202c313539202c30373937207b,
0x2c7d2030202c383637202c383837202c313539202c31373937207b,
0x2c7d2030202c393637202c373837202c313539202c32373937207b,
0x2c7d2030202c393637202c383837202c313539202c33373937207b,
0x2c7d2030202c343338202c373837202c313539202c34373937207b,
0x2c7d2030202c343338202c383837202c313539202c35373937207b,
0x2c7d2030202c373837202c393139202c36373937207b,
0x2c7d2030202c383837202c393139202c37373937207b,
0x2c7d2030202c383637202c373837202c393139202c38373937207b,
0x2c7d2030202c383637202c383837202c393139202c39373937207b,
0x2c7d2030202c393637202c373837202c393139202c30383937207b,
0x2c7d2030202c393637202c383837202c393139202c31383937207b,
0x2c7d2030202c343338202c373837202c393139202c32383937207b,
0x2c7d2030202c343338202c383837202c393139202c33383937207b,
0x2c7d2030202c373837202c333539202c34383937207b,
0x2c7d2030202c383837202c333539202c35383937207b,
0x2c7d2030202c383637202c373837202c333539202c36383937207b,
0x2c7d2030202c383637202c383837202c333539202c37383937207b,
0x2c7d2030202c393637202c373837202c333539202c38383937207b,
0x2c7d2030202c393637202c383837202c333539202c39383937207b,
0x2c7d2030202c343338202c373837202c333539202c30393937207b,
0x2c7d2030202c343338202c383837202c333539202c31393937207b,
0x2c7d2030202c373837202c313239202c32393937207b,
0x2c7d2030202c383837202c313239202c33393937207b]

/-- src/u5e/props/compatibility_and_canonical_decomposition_mapping_data.hpp lines 769-1024. -/
def rawKdecHdr3 : List Nat := [
0x2c7d2030202c383637202c373837202c313239202c34393937207b,
0x2c7d2030202c383637202c383837202c313239202c35393937207b,
0x2c7d2030202c393637202c373837202c313239202c36393937207b,
0x2c7d2030202c393637202c383837202c313239202c37393937207b,
0x2c7d2030202c343338202c373837202c313239202c38393937207b,
0x2c7d2030202c343338202c383837202c313239202c39393937207b,
0x2c7d2030202c373837202c393539202c30303038207b,
0x2c7d2030202c383837202c393539202c31303038207b,
0x2c7d2030202c383637202c373837202c393539202c32303038207b,
0x2c7d2030202c383637202c383837202c393539202c33303038207b,
0x2c7d2030202c393637202c373837202c393539202c34303038207b,
0x2c7d2030202c393637202c383837202c393539202c35303038207b,
0x2c7d2030202c373837202c373239202c38303038207b,
0x2c7d2030202c383837202c373239202c39303038207b,
0x2c7d2030202c383637202c373837202c373239202c30313038207b,
0x2c7d2030202c383637202c383837202c373239202c31313038207b,
0x2c7d2030202c393637202c373837202c373239202c32313038207b,
0x2c7d2030202c393637202c383837202c373239202c33313038207b,
0x2c7d2030202c373837202c353639202c36313038207b,
0x2c7d2030202c383837202c353639202c37313038207b,
0x2c7d2030202c383637202c373837202c353639202c38313038207b,
0x2c7d2030202c383637202c383837202c353639202c39313038207b,
0x2c7d2030202c393637202c373837202c353639202c30323038207b,
0x2c7d2030202c393637202c383837202c353639202c31323038207b,
0x2c7d2030202c343338202c373837202c353639202c32323038207b,
0x2c7d2030202c343338202c383837202c353639202c33323038207b,
0x2c7d2030202c383837202c333339202c35323038207b,
0x2c7d2030202c383637202c383837202c333339202c37323038207b,
0x2c7d2030202c393637202c383837202c333339202c39323038207b,
0x2c7d2030202c343338202c383837202c333339202c31333038207b,
0x2c7d2030202c373837202c393639202c32333038207b,
0x2c7d2030202c383837202c393639202c33333038207b,
0x2c7d2030202c383637202c373837202c393639202c34333038207b,
0x2c7d2030202c383637202c383837202c393639202c35333038207b,
0x2c7d2030202c393637202c373837202c393639202c36333038207b,
0x2c7d2030202c393637202c383837202c393639202c37333038207b,
0x2c7d2030202c343338202c373837202c393639202c38333038207b,
0x2c7d2030202c343338202c383837202c393639202c39333038207b,
0x2c7d2030202c373837202c373339202c30343038207b,
0x2c7d2030202c383837202c373339202c31343038207b,
0x2c7d2030202c383637202c373837202c373339202c32343038207b,
0x2c7d2030202c383637202c383837202c373339202c33343038207b,
0x2c7d2030202c393637202c373837202c373339202c34343038207b,
0x2c7d2030202c393637202c383837202c373339202c35343038207b,
0x2c7d2030202c343338202c373837202c373339202c36343038207b,
0x2c7d2030202c343338202c383837202c373339202c37343038207b,
0x2c7d2030202c383637202c353439202c38343038207b,
0x2c7d2030202c393637202c353439202c39343038207b,
0x2c7d2030202c383637202c393439202c30353038207b,
0x2c7d2030202c393637202c393439202c31353038207b,
0x2c7d2030202c383637202c313539202c32353038207b,
0x2c7d2030202c393637202c313539202c33353038207b,
0x2c7d2030202c383637202c333539202c34353038207b,
0x2c7d2030202c393637202c333539202c35353038207b,
0x2c7d2030202c383637202c393539202c36353038207b,
0x2c7d2030202c393637202c393539202c37353038207b,
0x2c7d2030202c383637202c353639202c38353038207b,
0x2c7d2030202c393637202c353639202c39353038207b,
0x2c7d2030202c383637202c393639202c30363038207b,
0x2c7d2030202c393637202c393639202c31363038207b,
0x2c7d2030202c373338202c373837202c353439202c34363038207b,
0x2c7d2030202c373338202c383837202c353439202c35363038207b,
0x2c7d2030202c373338202c383637202c373837202c353439202c36363038207b,
0x2c7d2030202c373338202c383637202c383837202c353439202c37363038207b,
0x2c7d2030202c373338202c393637202c373837202c353439202c38363038207b,
0x2c7d2030202c373338202c393637202c383837202c353439202c39363038207b,
0x2c7d2030202c373338202c343338202c373837202c353439202c30373038207b,
0x2c7d2030202c373338202c343338202c383837202c353439202c31373038207b,
0x2c7d2030202c373338202c373837202c333139202c32373038207b,
0x2c7d2030202c373338202c383837202c333139202c33373038207b,
0x2c7d2030202c373338202c383637202c373837202c333139202c34373038207b,
0x2c7d2030202c373338202c383637202c383837202c333139202c35373038207b,
0x2c7d2030202c373338202c393637202c373837202c333139202c36373038207b,
0x2c7d2030202c373338202c393637202c383837202c333139202c37373038207b,
0x2c7d2030202c373338202c343338202c373837202c333139202c38373038207b,
0x2c7d2030202c373338202c343338202c383837202c333139202c39373038207b,
0x2c7d2030202c373338202c373837202c313539202c30383038207b,
0x2c7d2030202c373338202c383837202c313539202c31383038207b,
0x2c7d2030202c373338202c383637202c373837202c313539202c32383038207b,
0x2c7d2030202c373338202c383637202c383837202c313539202c33383038207b,
0x2c7d2030202c373338202c393637202c373837202c313539202c34383038207b,
0x2c7d2030202c373338202c393637202c383837202c313539202c35383038207b,
0x2c7d2030202c373338202c343338202c373837202c313539202c36383038207b,
0x2c7d2030202c373338202c343338202c383837202c313539202c37383038207b,
0x2c7d2030202c373338202c373837202c393139202c38383038207b,
0x2c7d2030202c373338202c383837202c393139202c39383038207b,
0x2c7d2030202c373338202c383637202c373837202c393139202c30393038207b,
0x2c7d2030202c373338202c383637202c383837202c393139202c31393038207b,
0x2c7d2030202c373338202c393637202c373837202c393139202c32393038207b,
0x2c7d2030202c373338202c393637202c383837202c393139202c33393038207b,
0x2c7d2030202c373338202c343338202c373837202c393139202c34393038207b,
0x2c7d2030202c373338202c343338202c383837202c393139202c35393038207b,
0x2c7d2030202c373338202c373837202c393639202c36393038207b,
0x2c7d2030202c373338202c383837202c393639202c37393038207b,
0x2c7d2030202c373338202c383637202c373837202c393639202c38393038207b,
0x2c7d2030202c373338202c383637202c383837202c393639202c39393038207b,
0x2c7d2030202c373338202c393637202c373837202c393639202c30303138207b,
0x2c7d2030202c373338202c393637202c383837202c393639202c31303138207b,
0x2c7d2030202c373338202c343338202c373837202c393639202c32303138207b,
0x2c7d2030202c373338202c343338202c383837202c393639202c33303138207b,
0x2c7d2030202c373338202c373837202c373339202c34303138207b,
0x2c7d2030202c373338202c383837202c373339202c35303138207b,
0x2c7d2030202c373338202c383637202c373837202c373339202c36303138207b,
0x2c7d2030202c373338202c383637202c383837202c373339202c37303138207b,
0x2c7d2030202c373338202c393637202c373837202c373339202c38303138207b,
0x2c7d2030202c373338202c393637202c383837202c373339202c39303138207b,
0x2c7d2030202c373338202c343338202c373837202c373339202c30313138207b,
0x2c7d2030202c373338202c343338202c383837202c373339202c31313138207b,
0x2c7d2030202c343737202c353439202c32313138207b,
0x2c7d2030202c323737202c353439202c33313138207b,
0x2c7d2030202c373338202c383637202c353439202c34313138207b,
0x2c7d2030202c373338202c353439202c35313138207b,
0x2c7d2030202c373338202c393637202c353439202c36313138207b,
0x2c7d2030202c343338202c353439202c38313138207b,
0x2c7d2030202c373338202c343338202c353439202c39313138207b,
0x2c7d2030202c343737202c333139202c30323138207b,
0x2c7d2030202c323737202c333139202c31323138207b,
0x2c7d2030202c383637202c333139202c32323138207b,
0x2c7d2030202c393637202c333139202c33323138207b,
0x2c7d2030202c373338202c333139202c34323138207b,
0x2c7d2030202c373837202c3233202c35323138207b,
0x2c7d2030202c333539202c36323138207b,
0x2c7d2030202c373837202c3233202c37323138207b,
0x2c7d2030202c343338202c3233202c38323138207b,
0x2c7d2030202c343338202c363737202c3233202c39323138207b,
0x2c7d2030202c373338202c383637202c313539202c30333138207b,
0x2c7d2030202c373338202c313539202c31333138207b,
0x2c7d2030202c373338202c393637202c313539202c32333138207b,
0x2c7d2030202c343338202c313539202c34333138207b,
0x2c7d2030202c373338202c343338202c313539202c35333138207b,
0x2c7d2030202c383637202c373139202c36333138207b,
0x2c7d2030202c393637202c373139202c37333138207b,
0x2c7d2030202c383637202c393139202c38333138207b,
0x2c7d2030202c393637202c393139202c39333138207b,
0x2c7d2030202c373338202c393139202c30343138207b,
0x2c7d2030202c383637202c373837202c3233202c31343138207b,
0x2c7d2030202c393637202c373837202c3233202c32343138207b,
0x2c7d2030202c343338202c373837202c3233202c33343138207b,
0x2c7d2030202c343737202c333539202c34343138207b,
0x2c7d2030202c323737202c333539202c35343138207b,
0x2c7d2030202c383637202c363737202c333539202c36343138207b,
0x2c7d2030202c393637202c363737202c333539202c37343138207b,
0x2c7d2030202c343338202c333539202c30353138207b,
0x2c7d2030202c343338202c363737202c333539202c31353138207b,
0x2c7d2030202c343737202c313239202c32353138207b,
0x2c7d2030202c323737202c313239202c33353138207b,
0x2c7d2030202c383637202c313239202c34353138207b,
0x2c7d2030202c393637202c313239202c35353138207b,
0x2c7d2030202c383637202c383837202c3233202c37353138207b,
0x2c7d2030202c393637202c383837202c3233202c38353138207b,
0x2c7d2030202c343338202c383837202c3233202c39353138207b,
0x2c7d2030202c343737202c353639202c30363138207b,
0x2c7d2030202c323737202c353639202c31363138207b,
0x2c7d2030202c383637202c363737202c353639202c32363138207b,
0x2c7d2030202c393637202c363737202c353639202c33363138207b,
0x2c7d2030202c373837202c313639202c34363138207b,
0x2c7d2030202c383837202c313639202c35363138207b,
0x2c7d2030202c343338202c353639202c36363138207b,
0x2c7d2030202c343338202c363737202c353639202c37363138207b,
0x2c7d2030202c343737202c333339202c38363138207b,
0x2c7d2030202c323737202c333339202c39363138207b,
0x2c7d2030202c383637202c333339202c30373138207b,
0x2c7d2030202c393637202c333339202c31373138207b,
0x2c7d2030202c383837202c393239202c32373138207b,
0x2c7d2030202c383637202c363737202c3233202c33373138207b,
0x2c7d2030202c393637202c363737202c3233202c34373138207b,
0x2c7d2030202c3639202c35373138207b,
0x2c7d2030202c373338202c383637202c393639202c38373138207b,
0x2c7d2030202c373338202c393639202c39373138207b,
0x2c7d2030202c373338202c393637202c393639202c30383138207b,
0x2c7d2030202c343338202c393639202c32383138207b,
0x2c7d2030202c373338202c343338202c393639202c33383138207b,
0x2c7d2030202c383637202c373239202c34383138207b,
0x2c7d2030202c393637202c373239202c35383138207b,
0x2c7d2030202c383637202c373339202c36383138207b,
0x2c7d2030202c393637202c373339202c37383138207b,
0x2c7d2030202c373338202c373339202c38383138207b,
0x2c7d2030202c393637202c3233202c39383138207b,
0x2c7d2030202c383837202c3233202c30393138207b,
0x2c7d2030202c3233202c32393138207b,
0x2c7d2030202c3233202c33393138207b,
0x2c7d2030202c3233202c34393138207b,
0x2c7d2030202c3233202c35393138207b,
0x2c7d2030202c3233202c36393138207b,
0x2c7d2030202c3233202c37393138207b,
0x2c7d2030202c3233202c38393138207b,
0x2c7d2030202c3233202c30303238207b,
0x2c7d2030202c3233202c31303238207b,
0x2c7d2030202c3233202c32303238207b,
0x2c7d2030202c393138202c3233202c35313238207b,
0x2c7d2030202c3634202c38323238207b,
0x2c7d2030202c3634202c3634202c39323238207b,
0x2c7d2030202c3634202c3634202c3634202c30333238207b,
0x2c7d2030202c32343238202c32343238202c33343238207b,
0x2c7d2030202c32343238202c32343238202c32343238202c34343238207b,
0x2c7d2030202c35343238202c35343238202c36343238207b,
0x2c7d2030202c35343238202c35343238202c35343238202c37343238207b,
0x2c7d2030202c3333202c3333202c32353238207b,
0x2c7d2030202c333737202c3233202c34353238207b,
0x2c7d2030202c3336202c3336202c33363238207b,
0x2c7d2030202c3333202c3336202c34363238207b,
0x2c7d2030202c3336202c3333202c35363238207b,
0x2c7d2030202c32343238202c32343238202c32343238202c32343238202c39373238207b,
0x2c7d2030202c3233202c37383238207b,
0x2c7d2030202c353131202c3238202c30363338207b,
0x2c7d2030202c3939202c3734202c3739202c38343438207b,
0x2c7d2030202c353131202c3734202c3739202c39343438207b,
0x2c7d2030202c3736202c363731202c31353438207b,
0x2c7d2030202c313131202c3734202c3939202c33353438207b,
0x2c7d2030202c373131202c3734202c3939202c34353438207b,
0x2c7d2030202c303034202c35353438207b,
0x2c7d2030202c3037202c363731202c37353438207b,
0x2c7d2030202c313131202c3837202c30373438207b,
0x2c7d2030202c3637202c3936202c3438202c31383438207b,
0x2c7d2030202c373339202c36383438207b,
0x2c7d2030202c3537202c30393438207b,
0x2c7d2030202c383737202c3536202c31393438207b,
0x2c7d2030202c38383431202c31303538207b,
0x2c7d2030202c39383431202c32303538207b,
0x2c7d2030202c30393431202c33303538207b,
0x2c7d2030202c31393431202c34303538207b,
0x2c7d2030202c3838202c3536202c3037202c37303538207b,
0x2c7d2030202c3337202c34343538207b,
0x2c7d2030202c3337202c3337202c35343538207b,
0x2c7d2030202c3337202c3337202c3337202c36343538207b,
0x2c7d2030202c3638202c3337202c37343538207b,
0x2c7d2030202c3638202c38343538207b,
0x2c7d2030202c3337202c3638202c39343538207b,
0x2c7d2030202c3337202c3337202c3638202c30353538207b,
0x2c7d2030202c3337202c3337202c3337202c3638202c31353538207b,
0x2c7d2030202c3838202c3337202c32353538207b,
0x2c7d2030202c3838202c33353538207b,
0x2c7d2030202c3337202c3838202c34353538207b,
0x2c7d2030202c3337202c3337202c3838202c35353538207b,
0x2c7d2030202c3637202c36353538207b,
0x2c7d2030202c3736202c37353538207b,
0x2c7d2030202c3836202c38353538207b,
0x2c7d2030202c3737202c39353538207b,
0x2c7d2030202c353031202c30363538207b,
0x2c7d2030202c353031202c353031202c31363538207b,
0x2c7d2030202c353031202c353031202c353031202c32363538207b,
0x2c7d2030202c383131202c353031202c33363538207b,
0x2c7d2030202c383131202c34363538207b,
0x2c7d2030202c353031202c383131202c35363538207b,
0x2c7d2030202c353031202c353031202c383131202c36363538207b,
0x2c7d2030202c353031202c353031202c353031202c383131202c37363538207b,
0x2c7d2030202c303231202c353031202c38363538207b,
0x2c7d2030202c303231202c39363538207b,
0x2c7d2030202c353031202c303231202c30373538207b,
0x2c7d2030202c353031202c353031202c303231202c31373538207b,
0x2c7d2030202c383031202c32373538207b,
0x2c7d2030202c3939202c33373538207b,
0x2c7d2030202c303031202c34373538207b,
0x2c7d2030202c393031202c35373538207b,
0x2c7d2030202c343238202c32393538202c32303638207b,
0x2c7d2030202c343238202c34393538202c33303638207b]

/-- src/u5e/props/compatibility_and_canonical_decomposition_mapping_data.hpp lines 1025-1280. -/
def rawKdecHdr4 : List Nat := [
0x2c7d2030202c343238202c36393538202c32323638207b,
0x2c7d2030202c343238202c36353638202c33353638207b,
0x2c7d2030202c343238202c30363638202c34353638207b,
0x2c7d2030202c343238202c38353638202c35353638207b,
0x2c7d2030202c343238202c37303738202c38303738207b,
0x2c7d2030202c343238202c32313738202c33313738207b,
0x2c7d2030202c343238202c35313738202c36313738207b,
0x2c7d2030202c343238202c39333738202c30343738207b,
0x2c7d2030202c343238202c31343738202c32343738207b,
0x2c7d2030202c37343738202c37343738202c38343738207b,
0x2c7d2030202c37343738202c37343738202c37343738202c39343738207b,
0x2c7d2030202c30353738202c30353738202c31353738207b,
0x2c7d2030202c30353738202c30353738202c30353738202c32353738207b,
0x2c7d2030202c343238202c34363738202c39363738207b,
0x2c7d2030202c343238202c31373738202c32373738207b,
0x2c7d2030202c343238202c33373738202c35373738207b,
0x2c7d2030202c343238202c36373738202c37373738207b,
0x2c7d2030202c343238202c3136202c30303838207b,
0x2c7d2030202c343238202c31303838202c32303838207b,
0x2c7d2030202c343238202c31383738202c33313838207b,
0x2c7d2030202c343238202c3036202c34313838207b,
0x2c7d2030202c343238202c3236202c35313838207b,
0x2c7d2030202c343238202c34303838202c36313838207b,
0x2c7d2030202c343238202c35303838202c37313838207b,
0x2c7d2030202c343238202c38313838202c30323838207b,
0x2c7d2030202c343238202c39313838202c31323838207b,
0x2c7d2030202c343238202c32323838202c34323838207b,
0x2c7d2030202c343238202c33323838202c35323838207b,
0x2c7d2030202c343238202c36323838202c32333838207b,
0x2c7d2030202c343238202c37323838202c33333838207b,
0x2c7d2030202c343238202c34333838202c36333838207b,
0x2c7d2030202c343238202c35333838202c37333838207b,
0x2c7d2030202c343238202c38333838202c30343838207b,
0x2c7d2030202c343238202c39333838202c31343838207b,
0x2c7d2030202c343238202c36363838202c36373838207b,
0x2c7d2030202c343238202c32373838202c37373838207b,
0x2c7d2030202c343238202c33373838202c38373838207b,
0x2c7d2030202c343238202c35373838202c39373838207b,
0x2c7d2030202c343238202c38323838202c38323938207b,
0x2c7d2030202c343238202c39323838202c39323938207b,
0x2c7d2030202c343238202c39343838202c30333938207b,
0x2c7d2030202c343238202c30353838202c31333938207b,
0x2c7d2030202c343238202c32383838202c38333938207b,
0x2c7d2030202c343238202c33383838202c39333938207b,
0x2c7d2030202c343238202c34383838202c30343938207b,
0x2c7d2030202c343238202c35383838202c31343938207b,
0x2c7d2030202c3639323231202c31303039207b,
0x2c7d2030202c3739323231202c32303039207b,
0x2c7d2030202c3134202c3934202c3034202c32333339207b,
0x2c7d2030202c3134202c3035202c3034202c33333339207b,
0x2c7d2030202c3134202c3135202c3034202c34333339207b,
0x2c7d2030202c3134202c3235202c3034202c35333339207b,
0x2c7d2030202c3134202c3335202c3034202c36333339207b,
0x2c7d2030202c3134202c3435202c3034202c37333339207b,
0x2c7d2030202c3134202c3535202c3034202c38333339207b,
0x2c7d2030202c3134202c3635202c3034202c39333339207b,
0x2c7d2030202c3134202c3735202c3034202c30343339207b,
0x2c7d2030202c3134202c3834202c3934202c3034202c31343339207b,
0x2c7d2030202c3134202c3934202c3934202c3034202c32343339207b,
0x2c7d2030202c3134202c3035202c3934202c3034202c33343339207b,
0x2c7d2030202c3134202c3135202c3934202c3034202c34343339207b,
0x2c7d2030202c3134202c3235202c3934202c3034202c35343339207b,
0x2c7d2030202c3134202c3335202c3934202c3034202c36343339207b,
0x2c7d2030202c3134202c3435202c3934202c3034202c37343339207b,
0x2c7d2030202c3134202c3535202c3934202c3034202c38343339207b,
0x2c7d2030202c3134202c3635202c3934202c3034202c39343339207b,
0x2c7d2030202c3134202c3735202c3934202c3034202c30353339207b,
0x2c7d2030202c3134202c3834202c3035202c3034202c31353339207b,
0x2c7d2030202c3634202c3934202c32353339207b,
0x2c7d2030202c3634202c3035202c33353339207b,
0x2c7d2030202c3634202c3135202c34353339207b,
0x2c7d2030202c3634202c3235202c35353339207b,
0x2c7d2030202c3634202c3335202c36353339207b,
0x2c7d2030202c3634202c3435202c37353339207b,
0x2c7d2030202c3634202c3535202c38353339207b,
0x2c7d2030202c3634202c3635202c39353339207b,
0x2c7d2030202c3634202c3735202c30363339207b,
0x2c7d2030202c3634202c3834202c3934202c31363339207b,
0x2c7d2030202c3634202c3934202c3934202c32363339207b,
0x2c7d2030202c3634202c3035202c3934202c33363339207b,
0x2c7d2030202c3634202c3135202c3934202c34363339207b,
0x2c7d2030202c3634202c3235202c3934202c35363339207b,
0x2c7d2030202c3634202c3335202c3934202c36363339207b,
0x2c7d2030202c3634202c3435202c3934202c37363339207b,
0x2c7d2030202c3634202c3535202c3934202c38363339207b,
0x2c7d2030202c3634202c3635202c3934202c39363339207b,
0x2c7d2030202c3634202c3735202c3934202c30373339207b,
0x2c7d2030202c3634202c3834202c3035202c31373339207b,
0x2c7d2030202c3134202c3739202c3034202c32373339207b,
0x2c7d2030202c3134202c3839202c3034202c33373339207b,
0x2c7d2030202c3134202c3939202c3034202c34373339207b,
0x2c7d2030202c3134202c303031202c3034202c35373339207b,
0x2c7d2030202c3134202c313031202c3034202c36373339207b,
0x2c7d2030202c3134202c323031202c3034202c37373339207b,
0x2c7d2030202c3134202c333031202c3034202c38373339207b,
0x2c7d2030202c3134202c343031202c3034202c39373339207b,
0x2c7d2030202c3134202c353031202c3034202c30383339207b,
0x2c7d2030202c3134202c363031202c3034202c31383339207b,
0x2c7d2030202c3134202c373031202c3034202c32383339207b,
0x2c7d2030202c3134202c383031202c3034202c33383339207b,
0x2c7d2030202c3134202c393031202c3034202c34383339207b,
0x2c7d2030202c3134202c303131202c3034202c35383339207b,
0x2c7d2030202c3134202c313131202c3034202c36383339207b,
0x2c7d2030202c3134202c323131202c3034202c37383339207b,
0x2c7d2030202c3134202c333131202c3034202c38383339207b,
0x2c7d2030202c3134202c343131202c3034202c39383339207b,
0x2c7d2030202c3134202c353131202c3034202c30393339207b,
0x2c7d2030202c3134202c363131202c3034202c31393339207b,
0x2c7d2030202c3134202c373131202c3034202c32393339207b,
0x2c7d2030202c3134202c383131202c3034202c33393339207b,
0x2c7d2030202c3134202c393131202c3034202c34393339207b,
0x2c7d2030202c3134202c303231202c3034202c35393339207b,
0x2c7d2030202c3134202c313231202c3034202c36393339207b,
0x2c7d2030202c3134202c323231202c3034202c37393339207b,
0x2c7d2030202c37343738202c37343738202c37343738202c37343738202c3436373031207b,
0x2c7d2030202c3136202c3835202c3835202c3836383031207b,
0x2c7d2030202c3136202c3136202c3936383031207b,
0x2c7d2030202c3136202c3136202c3136202c3037383031207b,
0x2c7d2030202c343238202c3337393031202c3237393031207b,
0x2c7d2030202c3739353732202c3533393131207b,
0x2c7d2030202c3336383034202c3931303231207b,
0x2c7d2030202c3836393931202c3233303231207b,
0x2c7d2030202c3830303032202c3333303231207b,
0x2c7d2030202c3232303032202c3433303231207b,
0x2c7d2030202c3133303032202c3533303231207b,
0x2c7d2030202c3735303032202c3633303231207b,
0x2c7d2030202c3130313032202c3733303231207b,
0x2c7d2030202c3830313032202c3833303231207b,
0x2c7d2030202c3832313032202c3933303231207b,
0x2c7d2030202c3435313032202c3034303231207b,
0x2c7d2030202c3939373032202c3134303231207b,
0x2c7d2030202c3733383032202c3234303231207b,
0x2c7d2030202c3334383032202c3334303231207b,
0x2c7d2030202c3636383032202c3434303231207b,
0x2c7d2030202c3638383032202c3534303231207b,
0x2c7d2030202c3730393032202c3634303231207b,
0x2c7d2030202c3036393032202c3734303231207b,
0x2c7d2030202c3138393032202c3834303231207b,
0x2c7d2030202c3239393032202c3934303231207b,
0x2c7d2030202c3734313132202c3035303231207b,
0x2c7d2030202c3134323132202c3135303231207b,
0x2c7d2030202c3936323132202c3235303231207b,
0x2c7d2030202c3437323132202c3335303231207b,
0x2c7d2030202c3430333132202c3435303231207b,
0x2c7d2030202c3331333132202c3535303231207b,
0x2c7d2030202c3034333132202c3635303231207b,
0x2c7d2030202c3335333132202c3735303231207b,
0x2c7d2030202c3837333132202c3835303231207b,
0x2c7d2030202c3033343132202c3935303231207b,
0x2c7d2030202c3834343132202c3036303231207b,
0x2c7d2030202c3537343132202c3136303231207b,
0x2c7d2030202c3133323232202c3236303231207b,
0x2c7d2030202c3330333232202c3336303231207b,
0x2c7d2030202c3336373232202c3436303231207b,
0x2c7d2030202c3638373232202c3536303231207b,
0x2c7d2030202c3439373232202c3636303231207b,
0x2c7d2030202c3530383232202c3736303231207b,
0x2c7d2030202c3332383232202c3836303231207b,
0x2c7d2030202c3939383232202c3936303231207b,
0x2c7d2030202c3637333332202c3037303231207b,
0x2c7d2030202c3432343332202c3137303231207b,
0x2c7d2030202c3434353332202c3237303231207b,
0x2c7d2030202c3736353332202c3337303231207b,
0x2c7d2030202c3638353332202c3437303231207b,
0x2c7d2030202c3830363332202c3537303231207b,
0x2c7d2030202c3236363332202c3637303231207b,
0x2c7d2030202c3536363332202c3737303231207b,
0x2c7d2030202c3732303432202c3837303231207b,
0x2c7d2030202c3733303432202c3937303231207b,
0x2c7d2030202c3934303432202c3038303231207b,
0x2c7d2030202c3236303432202c3138303231207b,
0x2c7d2030202c3837313432202c3238303231207b,
0x2c7d2030202c3638313432202c3338303231207b,
0x2c7d2030202c3139313432202c3438303231207b,
0x2c7d2030202c3830333432202c3538303231207b,
0x2c7d2030202c3831333432202c3638303231207b,
0x2c7d2030202c3133333432202c3738303231207b,
0x2c7d2030202c3933333432202c3838303231207b,
0x2c7d2030202c3030343432202c3938303231207b,
0x2c7d2030202c3731343432202c3039303231207b,
0x2c7d2030202c3533343432202c3139303231207b,
0x2c7d2030202c3531353432202c3239303231207b,
0x2c7d2030202c3639303532202c3339303231207b,
0x2c7d2030202c3234313532202c3439303231207b,
0x2c7d2030202c3336313532202c3539303231207b,
0x2c7d2030202c3330393532202c3639303231207b,
0x2c7d2030202c3830393532202c3739303231207b,
0x2c7d2030202c3139393532202c3839303231207b,
0x2c7d2030202c3730303632202c3939303231207b,
0x2c7d2030202c3032303632202c3030313231207b,
0x2c7d2030202c3134303632202c3130313231207b,
0x2c7d2030202c3038303632202c3230313231207b,
0x2c7d2030202c3538303632202c3330313231207b,
0x2c7d2030202c3235333632202c3430313231207b,
0x2c7d2030202c3637333632202c3530313231207b,
0x2c7d2030202c3830343632202c3630313231207b,
0x2c7d2030202c3432343732202c3730313231207b,
0x2c7d2030202c3039343732202c3830313231207b,
0x2c7d2030202c3331353732202c3930313231207b,
0x2c7d2030202c3137353732202c3031313231207b,
0x2c7d2030202c3539353732202c3131313231207b,
0x2c7d2030202c3430363732202c3231313231207b,
0x2c7d2030202c3131363732202c3331313231207b,
0x2c7d2030202c3336363732202c3431313231207b,
0x2c7d2030202c3836363732202c3531313231207b,
0x2c7d2030202c3030373732202c3631313231207b,
0x2c7d2030202c3937373832202c3731313231207b,
0x2c7d2030202c3632323932202c3831313231207b,
0x2c7d2030202c3833323932202c3931313231207b,
0x2c7d2030202c3334323932202c3032313231207b,
0x2c7d2030202c3734323932202c3132313231207b,
0x2c7d2030202c3535323932202c3232313231207b,
0x2c7d2030202c3337323932202c3332313231207b,
0x2c7d2030202c3537323932202c3432313231207b,
0x2c7d2030202c3635333932202c3532313231207b,
0x2c7d2030202c3237353932202c3632313231207b,
0x2c7d2030202c3737353932202c3732313231207b,
0x2c7d2030202c3631393932202c3832313231207b,
0x2c7d2030202c3632393932202c3932313231207b,
0x2c7d2030202c3637393932202c3033313231207b,
0x2c7d2030202c3338393932202c3133313231207b,
0x2c7d2030202c3239393932202c3233313231207b,
0x2c7d2030202c3030303033202c3333313231207b,
0x2c7d2030202c3139303033202c3433313231207b,
0x2c7d2030202c3839303033202c3533313231207b,
0x2c7d2030202c3632333033202c3633313231207b,
0x2c7d2030202c3333333033202c3733313231207b,
0x2c7d2030202c3238333033202c3833313231207b,
0x2c7d2030202c3939333033202c3933313231207b,
0x2c7d2030202c3634343033202c3034313231207b,
0x2c7d2030202c3338363033202c3134313231207b,
0x2c7d2030202c3039363033202c3234313231207b,
0x2c7d2030202c3730373033202c3334313231207b,
0x2c7d2030202c3433303133202c3434313231207b,
0x2c7d2030202c3036313133202c3534313231207b,
0x2c7d2030202c3636313133202c3634313231207b,
0x2c7d2030202c3834333133202c3734313231207b,
0x2c7d2030202c3533343133202c3834313231207b,
0x2c7d2030202c3138343133202c3934313231207b,
0x2c7d2030202c3935383133202c3035313231207b,
0x2c7d2030202c3239393133202c3135313231207b,
0x2c7d2030202c3636353233202c3235313231207b,
0x2c7d2030202c3339353233202c3335313231207b,
0x2c7d2030202c3035363233202c3435313231207b,
0x2c7d2030202c3130373233202c3535313231207b,
0x2c7d2030202c3936373233202c3635313231207b,
0x2c7d2030202c3038373233202c3735313231207b,
0x2c7d2030202c3638373233202c3835313231207b,
0x2c7d2030202c3931383233202c3935313231207b,
0x2c7d2030202c3539383233202c3036313231207b,
0x2c7d2030202c3530393233202c3136313231207b,
0x2c7d2030202c3135323333202c3236313231207b,
0x2c7d2030202c3835323333202c3336313231207b,
0x2c7d2030202c3736323333202c3436313231207b,
0x2c7d2030202c3637323333202c3536313231207b,
0x2c7d2030202c3239323333202c3636313231207b]

/-- src/u5e/props/compatibility_and_canonical_decomposition_mapping_data.hpp lines 1281-1536. -/
def rawKdecHdr5 : List Nat := [
0x2c7d2030202c3730333333202c3736313231207b,
0x2c7d2030202c3131333333202c3836313231207b,
0x2c7d2030202c3039333333202c3936313231207b,
0x2c7d2030202c3439333333202c3037313231207b,
0x2c7d2030202c3030343333202c3137313231207b,
0x2c7d2030202c3138333433202c3237313231207b,
0x2c7d2030202c3131343433202c3337313231207b,
0x2c7d2030202c3038383433202c3437313231207b,
0x2c7d2030202c3239383433202c3537313231207b,
0x2c7d2030202c3531393433202c3637313231207b,
0x2c7d2030202c3839313533202c3737313231207b,
0x2c7d2030202c3131323533202c3837313231207b,
0x2c7d2030202c3238323533202c3937313231207b,
0x2c7d2030202c3832333533202c3038313231207b,
0x2c7d2030202c3539383533202c3138313231207b,
0x2c7d2030202c3031393533202c3238313231207b,
0x2c7d2030202c3532393533202c3338313231207b,
0x2c7d2030202c3036393533202c3438313231207b,
0x2c7d2030202c3739393533202c3538313231207b,
0x2c7d2030202c3639313633202c3638313231207b,
0x2c7d2030202c3830323633202c3738313231207b,
0x2c7d2030202c3537323633202c3838313231207b,
0x2c7d2030202c3332353633202c3938313231207b,
0x2c7d2030202c3435353633202c3039313231207b,
0x2c7d2030202c3336373633202c3139313231207b,
0x2c7d2030202c3438373633202c3239313231207b,
0x2c7d2030202c3938373633202c3339313231207b,
0x2c7d2030202c3930303733202c3439313231207b,
0x2c7d2030202c3339313733202c3539313231207b,
0x2c7d2030202c3831333733202c3639313231207b,
0x2c7d2030202c3432333733202c3739313231207b,
0x2c7d2030202c3932333733202c3839313231207b,
0x2c7d2030202c3336323833202c3939313231207b,
0x2c7d2030202c3237323833202c3030323231207b,
0x2c7d2030202c3832343833202c3130323231207b,
0x2c7d2030202c3238353833202c3230323231207b,
0x2c7d2030202c3538353833202c3330323231207b,
0x2c7d2030202c3233363833202c3430323231207b,
0x2c7d2030202c3733373833202c3530323231207b,
0x2c7d2030202c3035373833202c3630323231207b,
0x2c7d2030202c3435373833202c3730323231207b,
0x2c7d2030202c3136373833202c3830323231207b,
0x2c7d2030202c3935383833202c3930323231207b,
0x2c7d2030202c3339383833202c3031323231207b,
0x2c7d2030202c3939383833202c3131323231207b,
0x2c7d2030202c3331393833202c3231323231207b,
0x2c7d2030202c3038303933202c3331323231207b,
0x2c7d2030202c3133313933202c3431323231207b,
0x2c7d2030202c3533313933202c3531323231207b,
0x2c7d2030202c3831333933202c3631323231207b,
0x2c7d2030202c3132333933202c3731323231207b,
0x2c7d2030202c3034333933202c3831323231207b,
0x2c7d2030202c3239353933202c3931323231207b,
0x2c7d2030202c3034363933202c3032323231207b,
0x2c7d2030202c3734363933202c3132323231207b,
0x2c7d2030202c3731373933202c3232323231207b,
0x2c7d2030202c3732373933202c3332323231207b,
0x2c7d2030202c3033373933202c3432323231207b,
0x2c7d2030202c3034373933202c3532323231207b,
0x2c7d2030202c3037373933202c3632323231207b,
0x2c7d2030202c3536313034202c3732323231207b,
0x2c7d2030202c3536353034202c3832323231207b,
0x2c7d2030202c3537353034202c3932323231207b,
0x2c7d2030202c3331363034202c3033323231207b,
0x2c7d2030202c3533363034202c3133323231207b,
0x2c7d2030202c3334363034202c3233323231207b,
0x2c7d2030202c3335363034202c3333323231207b,
0x2c7d2030202c3735363034202c3433323231207b,
0x2c7d2030202c3739363034202c3533323231207b,
0x2c7d2030202c3130373034202c3633323231207b,
0x2c7d2030202c3831373034202c3733323231207b,
0x2c7d2030202c3332373034202c3833323231207b,
0x2c7d2030202c3633373034202c3933323231207b,
0x2c7d2030202c3336373034202c3034323231207b,
0x2c7d2030202c3837373034202c3134323231207b,
0x2c7d2030202c3638373034202c3234323231207b,
0x2c7d2030202c3534383034202c3334323231207b,
0x2c7d2030202c3036383034202c3434323231207b,
0x2c7d2030202c3436383034202c3534323231207b,
0x2c7d2030202c3630333231202c3234333231207b,
0x2c7d2030202c3331333132202c3434333231207b,
0x2c7d2030202c3631333132202c3534333231207b,
0x2c7d2030202c3731333132202c3634333231207b,
0x2c7d2030202c3134343231202c3336333231202c3436333231207b,
0x2c7d2030202c3134343231202c3536333231202c3636333231207b,
0x2c7d2030202c3134343231202c3736333231202c3836333231207b,
0x2c7d2030202c3134343231202c3936333231202c3037333231207b,
0x2c7d2030202c3134343231202c3137333231202c3237333231207b,
0x2c7d2030202c3134343231202c3337333231202c3437333231207b,
0x2c7d2030202c3134343231202c3537333231202c3637333231207b,
0x2c7d2030202c3134343231202c3737333231202c3837333231207b,
0x2c7d2030202c3134343231202c3937333231202c3038333231207b,
0x2c7d2030202c3134343231202c3138333231202c3238333231207b,
0x2c7d2030202c3134343231202c3338333231202c3438333231207b,
0x2c7d2030202c3134343231202c3538333231202c3638333231207b,
0x2c7d2030202c3134343231202c3838333231202c3938333231207b,
0x2c7d2030202c3134343231202c3039333231202c3139333231207b,
0x2c7d2030202c3134343231202c3239333231202c3339333231207b,
0x2c7d2030202c3134343231202c3939333231202c3030343231207b,
0x2c7d2030202c3234343231202c3939333231202c3130343231207b,
0x2c7d2030202c3134343231202c3230343231202c3330343231207b,
0x2c7d2030202c3234343231202c3230343231202c3430343231207b,
0x2c7d2030202c3134343231202c3530343231202c3630343231207b,
0x2c7d2030202c3234343231202c3530343231202c3730343231207b,
0x2c7d2030202c3134343231202c3830343231202c3930343231207b,
0x2c7d2030202c3234343231202c3830343231202c3031343231207b,
0x2c7d2030202c3134343231202c3131343231202c3231343231207b,
0x2c7d2030202c3234343231202c3131343231202c3331343231207b,
0x2c7d2030202c3134343231202c3835333231202c3633343231207b,
0x2c7d2030202c3134343231202c3233202c3334343231207b,
0x2c7d2030202c3234343231202c3233202c3434343231207b,
0x2c7d2030202c3134343231202c3534343231202c3634343231207b,
0x2c7d2030202c3134343231202c3935343231202c3036343231207b,
0x2c7d2030202c3134343231202c3136343231202c3236343231207b,
0x2c7d2030202c3134343231202c3336343231202c3436343231207b,
0x2c7d2030202c3134343231202c3536343231202c3636343231207b,
0x2c7d2030202c3134343231202c3736343231202c3836343231207b,
0x2c7d2030202c3134343231202c3936343231202c3037343231207b,
0x2c7d2030202c3134343231202c3137343231202c3237343231207b,
0x2c7d2030202c3134343231202c3337343231202c3437343231207b,
0x2c7d2030202c3134343231202c3537343231202c3637343231207b,
0x2c7d2030202c3134343231202c3737343231202c3837343231207b,
0x2c7d2030202c3134343231202c3937343231202c3038343231207b,
0x2c7d2030202c3134343231202c3138343231202c3238343231207b,
0x2c7d2030202c3134343231202c3438343231202c3538343231207b,
0x2c7d2030202c3134343231202c3638343231202c3738343231207b,
0x2c7d2030202c3134343231202c3838343231202c3938343231207b,
0x2c7d2030202c3134343231202c3539343231202c3639343231207b,
0x2c7d2030202c3234343231202c3539343231202c3739343231207b,
0x2c7d2030202c3134343231202c3839343231202c3939343231207b,
0x2c7d2030202c3234343231202c3839343231202c3030353231207b,
0x2c7d2030202c3134343231202c3130353231202c3230353231207b,
0x2c7d2030202c3234343231202c3130353231202c3330353231207b,
0x2c7d2030202c3134343231202c3430353231202c3530353231207b,
0x2c7d2030202c3234343231202c3430353231202c3630353231207b,
0x2c7d2030202c3134343231202c3730353231202c3830353231207b,
0x2c7d2030202c3234343231202c3730353231202c3930353231207b,
0x2c7d2030202c3134343231202c3435343231202c3233353231207b,
0x2c7d2030202c3134343231202c3732353231202c3533353231207b,
0x2c7d2030202c3134343231202c3832353231202c3633353231207b,
0x2c7d2030202c3134343231202c3932353231202c3733353231207b,
0x2c7d2030202c3134343231202c3033353231202c3833353231207b,
0x2c7d2030202c3134343231202c3134353231202c3234353231207b,
0x2c7d2030202c32353334202c3339353231207b,
0x2c7d2030202c33353334202c3439353231207b,
0x2c7d2030202c32323534202c3539353231207b,
0x2c7d2030202c34353334202c3639353231207b,
0x2c7d2030202c34323534202c3739353231207b,
0x2c7d2030202c35323534202c3839353231207b,
0x2c7d2030202c35353334202c3939353231207b,
0x2c7d2030202c36353334202c3030363231207b,
0x2c7d2030202c37353334202c3130363231207b,
0x2c7d2030202c38323534202c3230363231207b,
0x2c7d2030202c39323534202c3330363231207b,
0x2c7d2030202c30333534202c3430363231207b,
0x2c7d2030202c31333534202c3530363231207b,
0x2c7d2030202c32333534202c3630363231207b,
0x2c7d2030202c33333534202c3730363231207b,
0x2c7d2030202c38373334202c3830363231207b,
0x2c7d2030202c38353334202c3930363231207b,
0x2c7d2030202c39353334202c3031363231207b,
0x2c7d2030202c30363334202c3131363231207b,
0x2c7d2030202c35383334202c3231363231207b,
0x2c7d2030202c31363334202c3331363231207b,
0x2c7d2030202c32363334202c3431363231207b,
0x2c7d2030202c33363334202c3531363231207b,
0x2c7d2030202c34363334202c3631363231207b,
0x2c7d2030202c35363334202c3731363231207b,
0x2c7d2030202c36363334202c3831363231207b,
0x2c7d2030202c37363334202c3931363231207b,
0x2c7d2030202c38363334202c3032363231207b,
0x2c7d2030202c39363334202c3132363231207b,
0x2c7d2030202c30373334202c3232363231207b,
0x2c7d2030202c39343434202c3332363231207b,
0x2c7d2030202c30353434202c3432363231207b,
0x2c7d2030202c31353434202c3532363231207b,
0x2c7d2030202c32353434202c3632363231207b,
0x2c7d2030202c33353434202c3732363231207b,
0x2c7d2030202c34353434202c3832363231207b,
0x2c7d2030202c35353434202c3932363231207b,
0x2c7d2030202c36353434202c3033363231207b,
0x2c7d2030202c37353434202c3133363231207b,
0x2c7d2030202c38353434202c3233363231207b,
0x2c7d2030202c39353434202c3333363231207b,
0x2c7d2030202c30363434202c3433363231207b,
0x2c7d2030202c31363434202c3533363231207b,
0x2c7d2030202c32363434202c3633363231207b,
0x2c7d2030202c33363434202c3733363231207b,
0x2c7d2030202c34363434202c3833363231207b,
0x2c7d2030202c35363434202c3933363231207b,
0x2c7d2030202c36363434202c3034363231207b,
0x2c7d2030202c37363434202c3134363231207b,
0x2c7d2030202c38363434202c3234363231207b,
0x2c7d2030202c39363434202c3334363231207b,
0x2c7d2030202c38343434202c3434363231207b,
0x2c7d2030202c32373334202c3534363231207b,
0x2c7d2030202c33373334202c3634363231207b,
0x2c7d2030202c31353534202c3734363231207b,
0x2c7d2030202c32353534202c3834363231207b,
0x2c7d2030202c36353534202c3934363231207b,
0x2c7d2030202c38353534202c3035363231207b,
0x2c7d2030202c33363534202c3135363231207b,
0x2c7d2030202c37363534202c3235363231207b,
0x2c7d2030202c39363534202c3335363231207b,
0x2c7d2030202c30383334202c3435363231207b,
0x2c7d2030202c33373534202c3535363231207b,
0x2c7d2030202c35373534202c3635363231207b,
0x2c7d2030202c31383334202c3735363231207b,
0x2c7d2030202c32383334202c3835363231207b,
0x2c7d2030202c34383334202c3935363231207b,
0x2c7d2030202c36383334202c3036363231207b,
0x2c7d2030202c37383334202c3136363231207b,
0x2c7d2030202c31393334202c3236363231207b,
0x2c7d2030202c33393334202c3336363231207b,
0x2c7d2030202c35393334202c3436363231207b,
0x2c7d2030202c36393334202c3536363231207b,
0x2c7d2030202c37393334202c3636363231207b,
0x2c7d2030202c38393334202c3736363231207b,
0x2c7d2030202c39393334202c3836363231207b,
0x2c7d2030202c32303434202c3936363231207b,
0x2c7d2030202c36303434202c3037363231207b,
0x2c7d2030202c36313434202c3137363231207b,
0x2c7d2030202c33323434202c3237363231207b,
0x2c7d2030202c38323434202c3337363231207b,
0x2c7d2030202c33393534202c3437363231207b,
0x2c7d2030202c34393534202c3537363231207b,
0x2c7d2030202c39333434202c3637363231207b,
0x2c7d2030202c30343434202c3737363231207b,
0x2c7d2030202c31343434202c3837363231207b,
0x2c7d2030202c34383434202c3937363231207b,
0x2c7d2030202c35383434202c3038363231207b,
0x2c7d2030202c38383434202c3138363231207b,
0x2c7d2030202c37393434202c3238363231207b,
0x2c7d2030202c38393434202c3338363231207b,
0x2c7d2030202c30303534202c3438363231207b,
0x2c7d2030202c30313534202c3538363231207b,
0x2c7d2030202c33313534202c3638363231207b,
0x2c7d2030202c3134202c32353334202c3034202c3030383231207b,
0x2c7d2030202c3134202c34353334202c3034202c3130383231207b,
0x2c7d2030202c3134202c35353334202c3034202c3230383231207b,
0x2c7d2030202c3134202c37353334202c3034202c3330383231207b,
0x2c7d2030202c3134202c38353334202c3034202c3430383231207b,
0x2c7d2030202c3134202c39353334202c3034202c3530383231207b,
0x2c7d2030202c3134202c31363334202c3034202c3630383231207b,
0x2c7d2030202c3134202c33363334202c3034202c3730383231207b,
0x2c7d2030202c3134202c34363334202c3034202c3830383231207b,
0x2c7d2030202c3134202c36363334202c3034202c3930383231207b,
0x2c7d2030202c3134202c37363334202c3034202c3031383231207b,
0x2c7d2030202c3134202c38363334202c3034202c3131383231207b,
0x2c7d2030202c3134202c39363334202c3034202c3231383231207b,
0x2c7d2030202c3134202c30373334202c3034202c3331383231207b,
0x2c7d2030202c3134202c39343434202c32353334202c3034202c3431383231207b,
0x2c7d2030202c3134202c39343434202c34353334202c3034202c3531383231207b,
0x2c7d2030202c3134202c39343434202c35353334202c3034202c3631383231207b,
0x2c7d2030202c3134202c39343434202c37353334202c3034202c3731383231207b,
0x2c7d2030202c3134202c39343434202c38353334202c3034202c3831383231207b]

/-- src/u5e/props/compatibility_and_canonical_decomposition_mapping_data.hpp lines 1537-1792. -/
def rawKdecHdr6 : List Nat := [
0x2c7d2030202c3134202c39343434202c39353334202c3034202c3931383231207b,
0x2c7d2030202c3134202c39343434202c31363334202c3034202c3032383231207b,
0x2c7d2030202c3134202c39343434202c33363334202c3034202c3132383231207b,
0x2c7d2030202c3134202c39343434202c34363334202c3034202c3232383231207b,
0x2c7d2030202c3134202c39343434202c36363334202c3034202c3332383231207b,
0x2c7d2030202c3134202c39343434202c37363334202c3034202c3432383231207b,
0x2c7d2030202c3134202c39343434202c38363334202c3034202c3532383231207b,
0x2c7d2030202c3134202c39343434202c39363334202c3034202c3632383231207b,
0x2c7d2030202c3134202c39343434202c30373334202c3034202c3732383231207b,
0x2c7d2030202c3134202c32363434202c34363334202c3034202c3832383231207b,
0x2c7d2030202c3134202c33323534202c33353434202c34363334202c37353434202c33363334202c3034202c3932383231207b,
0x2c7d2030202c3134202c32363434202c30373334202c37353434202c33363334202c3034202c3033383231207b,
0x2c7d2030202c3134202c3836393931202c3034202c3233383231207b,
0x2c7d2030202c3134202c3830313032202c3034202c3333383231207b,
0x2c7d2030202c3134202c3737393931202c3034202c3433383231207b,
0x2c7d2030202c3134202c3533323232202c3034202c3533383231207b,
0x2c7d2030202c3134202c3631313032202c3034202c3633383231207b,
0x2c7d2030202c3134202c3534383032202c3034202c3733383231207b,
0x2c7d2030202c3134202c3137393931202c3034202c3833383231207b,
0x2c7d2030202c3134202c3334383032202c3034202c3933383231207b,
0x2c7d2030202c3134202c3136303032202c3034202c3034383231207b,
0x2c7d2030202c3134202c3331333132202c3034202c3134383231207b,
0x2c7d2030202c3134202c3637333632202c3034202c3234383231207b,
0x2c7d2030202c3134202c3937373832202c3034202c3334383231207b,
0x2c7d2030202c3134202c3030373732202c3034202c3434383231207b,
0x2c7d2030202c3134202c3830343632202c3034202c3534383231207b,
0x2c7d2030202c3134202c3932333733202c3034202c3634383231207b,
0x2c7d2030202c3134202c3330333232202c3034202c3734383231207b,
0x2c7d2030202c3134202c3538303632202c3034202c3834383231207b,
0x2c7d2030202c3134202c3636363632202c3034202c3934383231207b,
0x2c7d2030202c3134202c3737333632202c3034202c3035383231207b,
0x2c7d2030202c3134202c3833303133202c3034202c3135383231207b,
0x2c7d2030202c3134202c3731353132202c3034202c3235383231207b,
0x2c7d2030202c3134202c3530333932202c3034202c3335383231207b,
0x2c7d2030202c3134202c3130303633202c3034202c3435383231207b,
0x2c7d2030202c3134202c3936303133202c3034202c3535383231207b,
0x2c7d2030202c3134202c3237313132202c3034202c3635383231207b,
0x2c7d2030202c3134202c3539313032202c3034202c3735383231207b,
0x2c7d2030202c3134202c3832363132202c3034202c3835383231207b,
0x2c7d2030202c3134202c3839333332202c3034202c3935383231207b,
0x2c7d2030202c3134202c3533343033202c3034202c3036383231207b,
0x2c7d2030202c3134202c3532323032202c3034202c3136383231207b,
0x2c7d2030202c3134202c3933303633202c3034202c3236383231207b,
0x2c7d2030202c3134202c3233333132202c3034202c3336383231207b,
0x2c7d2030202c3134202c3538303133202c3034202c3436383231207b,
0x2c7d2030202c3134202c3134323032202c3034202c3536383231207b,
0x2c7d2030202c3134202c3835323333202c3034202c3636383231207b,
0x2c7d2030202c3134202c3736323333202c3034202c3736383231207b,
0x2c7d2030202c3637333632202c3934202c3239393231207b,
0x2c7d2030202c3637333632202c3035202c3339393231207b,
0x2c7d2030202c3637333632202c3135202c3439393231207b,
0x2c7d2030202c3637333632202c3235202c3539393231207b,
0x2c7d2030202c3637333632202c3335202c3639393231207b,
0x2c7d2030202c3637333632202c3435202c3739393231207b,
0x2c7d2030202c3637333632202c3535202c3839393231207b,
0x2c7d2030202c3637333632202c3635202c3939393231207b,
0x2c7d2030202c3637333632202c3735202c3030303331207b,
0x2c7d2030202c3637333632202c3834202c3934202c3130303331207b,
0x2c7d2030202c3637333632202c3934202c3934202c3230303331207b,
0x2c7d2030202c3637333632202c3035202c3934202c3330303331207b,
0x2c7d2030202c3735383832202c3834202c3434313331207b,
0x2c7d2030202c3735383832202c3934202c3534313331207b,
0x2c7d2030202c3735383832202c3035202c3634313331207b,
0x2c7d2030202c3735383832202c3135202c3734313331207b,
0x2c7d2030202c3735383832202c3235202c3834313331207b,
0x2c7d2030202c3735383832202c3335202c3934313331207b,
0x2c7d2030202c3735383832202c3435202c3035313331207b,
0x2c7d2030202c3735383832202c3535202c3135313331207b,
0x2c7d2030202c3735383832202c3635202c3235313331207b,
0x2c7d2030202c3735383832202c3735202c3335313331207b,
0x2c7d2030202c3735383832202c3834202c3934202c3435313331207b,
0x2c7d2030202c3735383832202c3934202c3934202c3535313331207b,
0x2c7d2030202c3735383832202c3035202c3934202c3635313331207b,
0x2c7d2030202c3735383832202c3135202c3934202c3735313331207b,
0x2c7d2030202c3735383832202c3235202c3934202c3835313331207b,
0x2c7d2030202c3735383832202c3335202c3934202c3935313331207b,
0x2c7d2030202c3735383832202c3435202c3934202c3036313331207b,
0x2c7d2030202c3735383832202c3535202c3934202c3136313331207b,
0x2c7d2030202c3735383832202c3635202c3934202c3236313331207b,
0x2c7d2030202c3735383832202c3735202c3934202c3336313331207b,
0x2c7d2030202c3735383832202c3834202c3035202c3436313331207b,
0x2c7d2030202c3735383832202c3934202c3035202c3536313331207b,
0x2c7d2030202c3735383832202c3035202c3035202c3636313331207b,
0x2c7d2030202c3735383832202c3135202c3035202c3736313331207b,
0x2c7d2030202c3735383832202c3235202c3035202c3836313331207b,
0x2c7d2030202c3538303632202c3934202c3038323331207b,
0x2c7d2030202c3538303632202c3035202c3138323331207b,
0x2c7d2030202c3538303632202c3135202c3238323331207b,
0x2c7d2030202c3538303632202c3235202c3338323331207b,
0x2c7d2030202c3538303632202c3335202c3438323331207b,
0x2c7d2030202c3538303632202c3435202c3538323331207b,
0x2c7d2030202c3538303632202c3535202c3638323331207b,
0x2c7d2030202c3538303632202c3635202c3738323331207b,
0x2c7d2030202c3538303632202c3735202c3838323331207b,
0x2c7d2030202c3538303632202c3834202c3934202c3938323331207b,
0x2c7d2030202c3538303632202c3934202c3934202c3039323331207b,
0x2c7d2030202c3538303632202c3035202c3934202c3139323331207b,
0x2c7d2030202c3538303632202c3135202c3934202c3239323331207b,
0x2c7d2030202c3538303632202c3235202c3934202c3339323331207b,
0x2c7d2030202c3538303632202c3335202c3934202c3439323331207b,
0x2c7d2030202c3538303632202c3435202c3934202c3539323331207b,
0x2c7d2030202c3538303632202c3535202c3934202c3639323331207b,
0x2c7d2030202c3538303632202c3635202c3934202c3739323331207b,
0x2c7d2030202c3538303632202c3735202c3934202c3839323331207b,
0x2c7d2030202c3538303632202c3834202c3035202c3939323331207b,
0x2c7d2030202c3538303632202c3934202c3035202c3030333331207b,
0x2c7d2030202c3538303632202c3035202c3035202c3130333331207b,
0x2c7d2030202c3538303632202c3135202c3035202c3230333331207b,
0x2c7d2030202c3538303632202c3235202c3035202c3330333331207b,
0x2c7d2030202c3538303632202c3335202c3035202c3430333331207b,
0x2c7d2030202c3538303632202c3435202c3035202c3530333331207b,
0x2c7d2030202c3538303632202c3535202c3035202c3630333331207b,
0x2c7d2030202c3538303632202c3635202c3035202c3730333331207b,
0x2c7d2030202c3538303632202c3735202c3035202c3830333331207b,
0x2c7d2030202c3538303632202c3834202c3135202c3930333331207b,
0x2c7d2030202c3538303632202c3934202c3135202c3031333331207b,
0x2c7d2030202c3231393533202c3434373336207b,
0x2c7d2030202c3635333632202c3534373336207b,
0x2c7d2030202c3435353633202c3634373336207b,
0x2c7d2030202c3034303633202c3734373336207b,
0x2c7d2030202c3936333832202c3834373336207b,
0x2c7d2030202c3831303032202c3934373336207b,
0x2c7d2030202c3737343132202c3035373336207b,
0x2c7d2030202c3036383034202c3135373336207b,
0x2c7d2030202c3036383034202c3235373336207b,
0x2c7d2030202c3536383232202c3335373336207b,
0x2c7d2030202c3932333733202c3435373336207b,
0x2c7d2030202c3539383132202c3535373336207b,
0x2c7d2030202c3635383232202c3635373336207b,
0x2c7d2030202c3837303532202c3735373336207b,
0x2c7d2030202c3331333033202c3835373336207b,
0x2c7d2030202c3534363233202c3935373336207b,
0x2c7d2030202c3736333433202c3036373336207b,
0x2c7d2030202c3634373433202c3136373336207b,
0x2c7d2030202c3436303533202c3236373336207b,
0x2c7d2030202c3730303733202c3336373336207b,
0x2c7d2030202c3833313732202c3436373336207b,
0x2c7d2030202c3133393732202c3536373336207b,
0x2c7d2030202c3938383832202c3636373336207b,
0x2c7d2030202c3236363932202c3736373336207b,
0x2c7d2030202c3335383333202c3836373336207b,
0x2c7d2030202c3632323733202c3936373336207b,
0x2c7d2030202c3930343933202c3037373336207b,
0x2c7d2030202c3839303032202c3137373336207b,
0x2c7d2030202c3536333132202c3237373336207b,
0x2c7d2030202c3639333732202c3337373336207b,
0x2c7d2030202c3131323932202c3437373336207b,
0x2c7d2030202c3934333433202c3537373336207b,
0x2c7d2030202c3837343034202c3637373336207b,
0x2c7d2030202c3838383332202c3737373336207b,
0x2c7d2030202c3135363832202c3837373336207b,
0x2c7d2030202c3335323433202c3937373336207b,
0x2c7d2030202c3237313533202c3038373336207b,
0x2c7d2030202c3938323532202c3138373336207b,
0x2c7d2030202c3034323333202c3238373336207b,
0x2c7d2030202c3734383433202c3338373336207b,
0x2c7d2030202c3636323432202c3438373336207b,
0x2c7d2030202c3139333632202c3538373336207b,
0x2c7d2030202c3031303832202c3638373336207b,
0x2c7d2030202c3633343932202c3738373336207b,
0x2c7d2030202c3037303733202c3838373336207b,
0x2c7d2030202c3835333032202c3938373336207b,
0x2c7d2030202c3931393032202c3039373336207b,
0x2c7d2030202c3431323132202c3139373336207b,
0x2c7d2030202c3639373532202c3239373336207b,
0x2c7d2030202c3734333732202c3339373336207b,
0x2c7d2030202c3030323932202c3439373336207b,
0x2c7d2030202c3933343033202c3539373336207b,
0x2c7d2030202c3936373233202c3639373336207b,
0x2c7d2030202c3031333433202c3739373336207b,
0x2c7d2030202c3639333433202c3839373336207b,
0x2c7d2030202c3533333633202c3939373336207b,
0x2c7d2030202c3630373833202c3030383336207b,
0x2c7d2030202c3139373933202c3130383336207b,
0x2c7d2030202c3234343034202c3230383336207b,
0x2c7d2030202c3036383033202c3330383336207b,
0x2c7d2030202c3330313133202c3430383336207b,
0x2c7d2030202c3036313233202c3530383336207b,
0x2c7d2030202c3733373333202c3630383336207b,
0x2c7d2030202c3633363733202c3730383336207b,
0x2c7d2030202c3537353034202c3830383336207b,
0x2c7d2030202c3234353533202c3930383336207b,
0x2c7d2030202c3135373232202c3031383336207b,
0x2c7d2030202c3432333432202c3131383336207b,
0x2c7d2030202c3034383133202c3231383336207b,
0x2c7d2030202c3439383233202c3331383336207b,
0x2c7d2030202c3238323932202c3431383336207b,
0x2c7d2030202c3232393033202c3531383336207b,
0x2c7d2030202c3433303633202c3631383336207b,
0x2c7d2030202c3734363833202c3731383336207b,
0x2c7d2030202c3434373232202c3831383336207b,
0x2c7d2030202c3035363332202c3931383336207b,
0x2c7d2030202c3535313732202c3032383336207b,
0x2c7d2030202c3232313832202c3132383336207b,
0x2c7d2030202c3133343832202c3232383336207b,
0x2c7d2030202c3734303233202c3332383336207b,
0x2c7d2030202c3131333233202c3432383336207b,
0x2c7d2030202c3537343833202c3532383336207b,
0x2c7d2030202c3230323132202c3632383336207b,
0x2c7d2030202c3730393233202c3732383336207b,
0x2c7d2030202c3635393032202c3832383336207b,
0x2c7d2030202c3034393032202c3932383336207b,
0x2c7d2030202c3036323133202c3033383336207b,
0x2c7d2030202c3039313233202c3133383336207b,
0x2c7d2030202c3737373333202c3233383336207b,
0x2c7d2030202c3731353833202c3333383336207b,
0x2c7d2030202c3231373533202c3433383336207b,
0x2c7d2030202c3539323532202c3533383336207b,
0x2c7d2030202c3833313732202c3633383336207b,
0x2c7d2030202c3238353533202c3733383336207b,
0x2c7d2030202c3532303032202c3833383336207b,
0x2c7d2030202c3732353332202c3933383336207b,
0x2c7d2030202c3439353432202c3034383336207b,
0x2c7d2030202c3537353932202c3134383336207b,
0x2c7d2030202c3436303033202c3234383336207b,
0x2c7d2030202c3137323132202c3334383336207b,
0x2c7d2030202c3137393033202c3434383336207b,
0x2c7d2030202c3531343032202c3534383336207b,
0x2c7d2030202c3938343432202c3634383336207b,
0x2c7d2030202c3138393931202c3734383336207b,
0x2c7d2030202c3235383732202c3834383336207b,
0x2c7d2030202c3637393532202c3934383336207b,
0x2c7d2030202c3433303233202c3035383336207b,
0x2c7d2030202c3334343132202c3135383336207b,
0x2c7d2030202c3232363232202c3235383336207b,
0x2c7d2030202c3536343033202c3335383336207b,
0x2c7d2030202c3536383333202c3435383336207b,
0x2c7d2030202c3839343533202c3535383336207b,
0x2c7d2030202c3837353732202c3635383336207b,
0x2c7d2030202c3438373633202c3735383336207b,
0x2c7d2030202c3438373732202c3835383336207b,
0x2c7d2030202c3234333532202c3935383336207b,
0x2c7d2030202c3930353333202c3036383336207b,
0x2c7d2030202c3430353532202c3136383336207b,
0x2c7d2030202c3335303033202c3236383336207b,
0x2c7d2030202c3234313032202c3336383336207b,
0x2c7d2030202c3134383032202c3436383336207b,
0x2c7d2030202c3733393032202c3536383336207b,
0x2c7d2030202c3335373632202c3636383336207b,
0x2c7d2030202c3537393133202c3736383336207b,
0x2c7d2030202c3139333333202c3836383336207b,
0x2c7d2030202c3833353533202c3936383336207b,
0x2c7d2030202c3732333733202c3037383336207b,
0x2c7d2030202c3733323132202c3137383336207b,
0x2c7d2030202c3037353132202c3237383336207b,
0x2c7d2030202c3939383232202c3337383336207b,
0x2c7d2030202c3030333432202c3437383336207b,
0x2c7d2030202c3335303632202c3537383336207b,
0x2c7d2030202c3037363832202c3637383336207b,
0x2c7d2030202c3831303133202c3737383336207b,
0x2c7d2030202c3731333833202c3837383336207b,
0x2c7d2030202c3033353933202c3937383336207b,
0x2c7d2030202c3939353034202c3038383336207b,
0x2c7d2030202c3435363034202c3138383336207b,
0x2c7d2030202c3734313132202c3238383336207b,
0x2c7d2030202c3031333632202c3338383336207b]

/-- src/u5e/props/compatibility_and_canonical_decomposition_mapping_data.hpp lines 1793-2048. -/
def rawKdecHdr7 : List Nat := [
0x2c7d2030202c3131353732202c3438383336207b,
0x2c7d2030202c3630373633202c3538383336207b,
0x2c7d2030202c3038313432202c3638383336207b,
0x2c7d2030202c3637393432202c3738383336207b,
0x2c7d2030202c3838303532202c3838383336207b,
0x2c7d2030202c3435373532202c3938383336207b,
0x2c7d2030202c3135343832202c3039383336207b,
0x2c7d2030202c3130303932202c3139383336207b,
0x2c7d2030202c3333383932202c3239383336207b,
0x2c7d2030202c3837313133202c3339383336207b,
0x2c7d2030202c3434323233202c3439383336207b,
0x2c7d2030202c3937383233202c3539383336207b,
0x2c7d2030202c3634363633202c3639383336207b,
0x2c7d2030202c3033303433202c3739383336207b,
0x2c7d2030202c3939383633202c3839383336207b,
0x2c7d2030202c3630373733202c3939383336207b,
0x2c7d2030202c3531303132202c3030393336207b,
0x2c7d2030202c3535313132202c3130393336207b,
0x2c7d2030202c3339363132202c3230393336207b,
0x2c7d2030202c3237383832202c3330393336207b,
0x2c7d2030202c3031303533202c3430393336207b,
0x2c7d2030202c3839343533202c3530393336207b,
0x2c7d2030202c3536323432202c3630393336207b,
0x2c7d2030202c3536353432202c3730393336207b,
0x2c7d2030202c3736343532202c3830393336207b,
0x2c7d2030202c3636353732202c3930393336207b,
0x2c7d2030202c3630383133202c3031393336207b,
0x2c7d2030202c3735353932202c3131393336207b,
0x2c7d2030202c3639313032202c3231393336207b,
0x2c7d2030202c3536323232202c3331393336207b,
0x2c7d2030202c3732353332202c3431393336207b,
0x2c7d2030202c3439393332202c3531393336207b,
0x2c7d2030202c3430363432202c3631393336207b,
0x2c7d2030202c3831363932202c3731393336207b,
0x2c7d2030202c3130383932202c3831393336207b,
0x2c7d2030202c3636363233202c3931393336207b,
0x2c7d2030202c3833383233202c3032393336207b,
0x2c7d2030202c3832343733202c3132393336207b,
0x2c7d2030202c3634363833202c3232393336207b,
0x2c7d2030202c3832373833202c3332393336207b,
0x2c7d2030202c3633393833202c3432393336207b,
0x2c7d2030202c3336333032202c3532393336207b,
0x2c7d2030202c3035313133202c3632393336207b,
0x2c7d2030202c3030333733202c3732393336207b,
0x2c7d2030202c3438353833202c3832393336207b,
0x2c7d2030202c3130383432202c3932393336207b,
0x2c7d2030202c3230313032202c3033393336207b,
0x2c7d2030202c3839363032202c3133393336207b,
0x2c7d2030202c3433353332202c3233393336207b,
0x2c7d2030202c3531363332202c3333393336207b,
0x2c7d2030202c3930303632202c3433393336207b,
0x2c7d2030202c3833313732202c3533393336207b,
0x2c7d2030202c3433313932202c3633393336207b,
0x2c7d2030202c3437323033202c3733393336207b,
0x2c7d2030202c3434303433202c3833393336207b,
0x2c7d2030202c3838393633202c3933393336207b,
0x2c7d2030202c3534383034202c3034393336207b,
0x2c7d2030202c3834323632202c3134393336207b,
0x2c7d2030202c3634343833202c3234393336207b,
0x2c7d2030202c3932313132202c3334393336207b,
0x2c7d2030202c3139343632202c3434393336207b,
0x2c7d2030202c3131363632202c3534393336207b,
0x2c7d2030202c3936393732202c3634393336207b,
0x2c7d2030202c3631333832202c3734393336207b,
0x2c7d2030202c3530373932202c3834393336207b,
0x2c7d2030202c3134303033202c3934393336207b,
0x2c7d2030202c3732383033202c3035393336207b,
0x2c7d2030202c3631303233202c3135393336207b,
0x2c7d2030202c3630303933202c3235393336207b,
0x2c7d2030202c3534383032202c3335393336207b,
0x2c7d2030202c3433313532202c3435393336207b,
0x2c7d2030202c3032353833202c3535393336207b,
0x2c7d2030202c3332353032202c3635393336207b,
0x2c7d2030202c3333383332202c3735393336207b,
0x2c7d2030202c3833313832202c3835393336207b,
0x2c7d2030202c3035363633202c3935393336207b,
0x2c7d2030202c3935343432202c3036393336207b,
0x2c7d2030202c3030393432202c3136393336207b,
0x2c7d2030202c3734363632202c3236393336207b,
0x2c7d2030202c3537353932202c3336393336207b,
0x2c7d2030202c3433353833202c3436393336207b,
0x2c7d2030202c3333303132202c3536393336207b,
0x2c7d2030202c3931353132202c3636393336207b,
0x2c7d2030202c3335363332202c3736393336207b,
0x2c7d2030202c3133313632202c3836393336207b,
0x2c7d2030202c3634343632202c3936393336207b,
0x2c7d2030202c3239373632202c3037393336207b,
0x2c7d2030202c3737383732202c3137393336207b,
0x2c7d2030202c3230373932202c3237393336207b,
0x2c7d2030202c3837313033202c3337393336207b,
0x2c7d2030202c3333363233202c3437393336207b,
0x2c7d2030202c3332303533202c3537393336207b,
0x2c7d2030202c3134303533202c3637393336207b,
0x2c7d2030202c3432333733202c3737393336207b,
0x2c7d2030202c3632363833202c3837393336207b,
0x2c7d2030202c3131333132202c3937393336207b,
0x2c7d2030202c3634333832202c3038393336207b,
0x2c7d2030202c3333353132202c3138393336207b,
0x2c7d2030202c3633313932202c3238393336207b,
0x2c7d2030202c3834383932202c3338393336207b,
0x2c7d2030202c3839323433202c3438393336207b,
0x2c7d2030202c3336353833202c3538393336207b,
0x2c7d2030202c3332303034202c3638393336207b,
0x2c7d2030202c3730363034202c3738393336207b,
0x2c7d2030202c3931353632202c3838393336207b,
0x2c7d2030202c3730313832202c3938393336207b,
0x2c7d2030202c3635323333202c3039393336207b,
0x2c7d2030202c3533343133202c3139393336207b,
0x2c7d2030202c3032353133202c3239393336207b,
0x2c7d2030202c3039383133202c3339393336207b,
0x2c7d2030202c3637333932202c3439393336207b,
0x2c7d2030202c3532383832202c3539393336207b,
0x2c7d2030202c3237363533202c3639393336207b,
0x2c7d2030202c3036313032202c3739393336207b,
0x2c7d2030202c3039353333202c3839393336207b,
0x2c7d2030202c3035303132202c3939393336207b,
0x2c7d2030202c3939393032202c3030303436207b,
0x2c7d2030202c3033323432202c3130303436207b,
0x2c7d2030202c3939323532202c3230303436207b,
0x2c7d2030202c3835393133202c3330303436207b,
0x2c7d2030202c3932343332202c3430303436207b,
0x2c7d2030202c3433393732202c3530303436207b,
0x2c7d2030202c3239323632202c3630303436207b,
0x2c7d2030202c3736363633202c3730303436207b,
0x2c7d2030202c3239383433202c3830303436207b,
0x2c7d2030202c3737343833202c3930303436207b,
0x2c7d2030202c3131323533202c3031303436207b,
0x2c7d2030202c3537323432202c3131303436207b,
0x2c7d2030202c3030383032202c3231303436207b,
0x2c7d2030202c3235393132202c3331303436207b,
0x2c7d2030202c3831363232202c3631303436207b,
0x2c7d2030202c3832323632202c3831303436207b,
0x2c7d2030202c3835393032202c3132303436207b,
0x2c7d2030202c3238343932202c3232303436207b,
0x2c7d2030202c3031343033202c3332303436207b,
0x2c7d2030202c3633303133202c3432303436207b,
0x2c7d2030202c3037303133202c3532303436207b,
0x2c7d2030202c3737303133202c3632303436207b,
0x2c7d2030202c3931313133202c3732303436207b,
0x2c7d2030202c3234373833202c3832303436207b,
0x2c7d2030202c3433393133202c3932303436207b,
0x2c7d2030202c3130373233202c3033303436207b,
0x2c7d2030202c3232333433202c3233303436207b,
0x2c7d2030202c3637353533202c3433303436207b,
0x2c7d2030202c3032393633202c3733303436207b,
0x2c7d2030202c3731313733202c3833303436207b,
0x2c7d2030202c3135313933202c3234303436207b,
0x2c7d2030202c3436313933202c3334303436207b,
0x2c7d2030202c3830323933202c3434303436207b,
0x2c7d2030202c3237333034202c3534303436207b,
0x2c7d2030202c3638303733202c3634303436207b,
0x2c7d2030202c3338353833202c3734303436207b,
0x2c7d2030202c3839333032202c3834303436207b,
0x2c7d2030202c3131373032202c3934303436207b,
0x2c7d2030202c3331383032202c3035303436207b,
0x2c7d2030202c3339313132202c3135303436207b,
0x2c7d2030202c3032323132202c3235303436207b,
0x2c7d2030202c3932333132202c3335303436207b,
0x2c7d2030202c3731393132202c3435303436207b,
0x2c7d2030202c3232303232202c3535303436207b,
0x2c7d2030202c3032313232202c3635303436207b,
0x2c7d2030202c3239353232202c3735303436207b,
0x2c7d2030202c3639363232202c3835303436207b,
0x2c7d2030202c3235363332202c3935303436207b,
0x2c7d2030202c3236363332202c3036303436207b,
0x2c7d2030202c3432373432202c3136303436207b,
0x2c7d2030202c3633393432202c3236303436207b,
0x2c7d2030202c3437393432202c3336303436207b,
0x2c7d2030202c3437303532202c3436303436207b,
0x2c7d2030202c3533393532202c3536303436207b,
0x2c7d2030202c3238303632202c3636303436207b,
0x2c7d2030202c3735323632202c3736303436207b,
0x2c7d2030202c3735373632202c3836303436207b,
0x2c7d2030202c3332303832202c3936303436207b,
0x2c7d2030202c3638313832202c3037303436207b,
0x2c7d2030202c3035343832202c3137303436207b,
0x2c7d2030202c3833303932202c3237303436207b,
0x2c7d2030202c3732323932202c3337303436207b,
0x2c7d2030202c3033373932202c3437303436207b,
0x2c7d2030202c3536383033202c3537303436207b,
0x2c7d2030202c3833303133202c3637303436207b,
0x2c7d2030202c3934303133202c3737303436207b,
0x2c7d2030202c3834303133202c3837303436207b,
0x2c7d2030202c3635303133202c3937303436207b,
0x2c7d2030202c3236303133202c3038303436207b,
0x2c7d2030202c3936303133202c3138303436207b,
0x2c7d2030202c3731313133202c3238303436207b,
0x2c7d2030202c3831313133202c3338303436207b,
0x2c7d2030202c3639323133202c3438303436207b,
0x2c7d2030202c3136333133202c3538303436207b,
0x2c7d2030202c3038363133202c3638303436207b,
0x2c7d2030202c3434323233202c3738303436207b,
0x2c7d2030202c3536323233202c3838303436207b,
0x2c7d2030202c3132333233202c3938303436207b,
0x2c7d2030202c3632363233202c3039303436207b,
0x2c7d2030202c3337373233202c3139303436207b,
0x2c7d2030202c3136323333202c3239303436207b,
0x2c7d2030202c3130343333202c3339303436207b,
0x2c7d2030202c3130343333202c3439303436207b,
0x2c7d2030202c3937383333202c3539303436207b,
0x2c7d2030202c3838303533202c3639303436207b,
0x2c7d2030202c3232323533202c3739303436207b,
0x2c7d2030202c3538353533202c3839303436207b,
0x2c7d2030202c3134363533202c3939303436207b,
0x2c7d2030202c3135303633202c3030313436207b,
0x2c7d2030202c3430313633202c3130313436207b,
0x2c7d2030202c3039373633202c3230313436207b,
0x2c7d2030202c3032393633202c3330313436207b,
0x2c7d2030202c3732363833202c3430313436207b,
0x2c7d2030202c3131393833202c3530313436207b,
0x2c7d2030202c3137393833202c3630313436207b,
0x2c7d2030202c3339363432202c3730313436207b,
0x2c7d2030202c363032383431202c3830313436207b,
0x2c7d2030202c3430333333202c3930313436207b,
0x2c7d2030202c3630303032202c3231313436207b,
0x2c7d2030202c3731393032202c3331313436207b,
0x2c7d2030202c3034383032202c3431313436207b,
0x2c7d2030202c3235333032202c3531313436207b,
0x2c7d2030202c3530383032202c3631313436207b,
0x2c7d2030202c3436383032202c3731313436207b,
0x2c7d2030202c3139313132202c3831313436207b,
0x2c7d2030202c3234323132202c3931313436207b,
0x2c7d2030202c3731393132202c3032313436207b,
0x2c7d2030202c3534383132202c3132313436207b,
0x2c7d2030202c3331393132202c3232313436207b,
0x2c7d2030202c3638393132202c3332313436207b,
0x2c7d2030202c3831363232202c3432313436207b,
0x2c7d2030202c3730373232202c3532313436207b,
0x2c7d2030202c3235383232202c3632313436207b,
0x2c7d2030202c3836383232202c3732313436207b,
0x2c7d2030202c3833313332202c3832313436207b,
0x2c7d2030202c3633333332202c3932313436207b,
0x2c7d2030202c3437323432202c3033313436207b,
0x2c7d2030202c3138323432202c3133313436207b,
0x2c7d2030202c3532343432202c3233313436207b,
0x2c7d2030202c3339343432202c3333313436207b,
0x2c7d2030202c3239373432202c3433313436207b,
0x2c7d2030202c3031393432202c3533313436207b,
0x2c7d2030202c3034383432202c3633313436207b,
0x2c7d2030202c3437393432202c3733313436207b,
0x2c7d2030202c3832393432202c3833313436207b,
0x2c7d2030202c3437303532202c3933313436207b,
0x2c7d2030202c3034313532202c3034313436207b,
0x2c7d2030202c3034353532202c3134313436207b,
0x2c7d2030202c3832363532202c3234313436207b,
0x2c7d2030202c3238363532202c3334313436207b,
0x2c7d2030202c3234393532202c3434313436207b,
0x2c7d2030202c3832323632202c3534313436207b,
0x2c7d2030202c3139333632202c3634313436207b,
0x2c7d2030202c3539333632202c3734313436207b,
0x2c7d2030202c3435343632202c3834313436207b,
0x2c7d2030202c3331353732202c3934313436207b,
0x2c7d2030202c3837353732202c3035313436207b,
0x2c7d2030202c3936393732202c3135313436207b,
0x2c7d2030202c3937333832202c3235313436207b,
0x2c7d2030202c3336333832202c3335313436207b]

/-- src/u5e/props/compatibility_and_canonical_decomposition_mapping_data.hpp lines 2049-2304. -/
def rawKdecHdr8 : List Nat := [
0x2c7d2030202c3035343832202c3435313436207b,
0x2c7d2030202c3230373832202c3535313436207b,
0x2c7d2030202c3833303932202c3635313436207b,
0x2c7d2030202c3133363033202c3735313436207b,
0x2c7d2030202c3733323932202c3835313436207b,
0x2c7d2030202c3935333932202c3935313436207b,
0x2c7d2030202c3238343932202c3036313436207b,
0x2c7d2030202c3930383932202c3136313436207b,
0x2c7d2030202c3835393932202c3236313436207b,
0x2c7d2030202c3131303033202c3336313436207b,
0x2c7d2030202c3733323033202c3436313436207b,
0x2c7d2030202c3933323033202c3536313436207b,
0x2c7d2030202c3031343033202c3636313436207b,
0x2c7d2030202c3732343033202c3736313436207b,
0x2c7d2030202c3235343033202c3836313436207b,
0x2c7d2030202c3833353033202c3936313436207b,
0x2c7d2030202c3832353033202c3037313436207b,
0x2c7d2030202c3432393033202c3137313436207b,
0x2c7d2030202c3930343133202c3237313436207b,
0x2c7d2030202c3038363133202c3337313436207b,
0x2c7d2030202c3736383133202c3437313436207b,
0x2c7d2030202c3139303233202c3537313436207b,
0x2c7d2030202c3434323233202c3637313436207b,
0x2c7d2030202c3437353233202c3737313436207b,
0x2c7d2030202c3337373233202c3837313436207b,
0x2c7d2030202c3831363333202c3937313436207b,
0x2c7d2030202c3537373333202c3038313436207b,
0x2c7d2030202c3138363433202c3138313436207b,
0x2c7d2030202c3733313533202c3238313436207b,
0x2c7d2030202c3630323533202c3338313436207b,
0x2c7d2030202c3232323533202c3438313436207b,
0x2c7d2030202c3931353533202c3538313436207b,
0x2c7d2030202c3637353533202c3638313436207b,
0x2c7d2030202c3133353533202c3738313436207b,
0x2c7d2030202c3538353533202c3838313436207b,
0x2c7d2030202c3238353533202c3938313436207b,
0x2c7d2030202c3536353533202c3039313436207b,
0x2c7d2030202c3134363533202c3139313436207b,
0x2c7d2030202c3232373533202c3239313436207b,
0x2c7d2030202c3430313633202c3339313436207b,
0x2c7d2030202c3436363633202c3439313436207b,
0x2c7d2030202c3837393633202c3539313436207b,
0x2c7d2030202c3337323733202c3639313436207b,
0x2c7d2030202c3439343733202c3739313436207b,
0x2c7d2030202c3432353833202c3839313436207b,
0x2c7d2030202c3732363833202c3939313436207b,
0x2c7d2030202c3234373833202c3030323436207b,
0x2c7d2030202c3537383833202c3130323436207b,
0x2c7d2030202c3131393833202c3230323436207b,
0x2c7d2030202c3332393833202c3330323436207b,
0x2c7d2030202c3137393833202c3430323436207b,
0x2c7d2030202c3839363933202c3530323436207b,
0x2c7d2030202c3036383034202c3630323436207b,
0x2c7d2030202c363833313431202c3730323436207b,
0x2c7d2030202c303833313431202c3830323436207b,
0x2c7d2030202c313433343431202c3930323436207b,
0x2c7d2030202c3136323531202c3031323436207b,
0x2c7d2030202c3830343631202c3131323436207b,
0x2c7d2030202c3134343631202c3231323436207b,
0x2c7d2030202c373331323531202c3331323436207b,
0x2c7d2030202c323338343531202c3431323436207b,
0x2c7d2030202c393335333631202c3531323436207b,
0x2c7d2030202c3137373034202c3631323436207b,
0x2c7d2030202c3634383034202c3731323436207b,
0x2c7d2030202c323031202c323031202c3635323436207b,
0x2c7d2030202c353031202c323031202c3735323436207b,
0x2c7d2030202c383031202c323031202c3835323436207b,
0x2c7d2030202c353031202c323031202c323031202c3935323436207b,
0x2c7d2030202c383031202c323031202c323031202c3036323436207b,
0x2c7d2030202c363131202c353131202c3136323436207b,
0x2c7d2030202c363131202c353131202c3236323436207b,
0x2c7d2030202c38393331202c36393331202c3537323436207b,
0x2c7d2030202c31383331202c36393331202c3637323436207b,
0x2c7d2030202c37383331202c36393331202c3737323436207b,
0x2c7d2030202c38393331202c36303431202c3837323436207b,
0x2c7d2030202c39383331202c36393331202c3937323436207b,
0x2c7d2030202c30363431202c37393431202c3538323436207b,
0x2c7d2030202c33363431202c32323531202c3738323436207b,
0x2c7d2030202c33373431202c33313531202c3839323436207b,
0x2c7d2030202c34373431202c33313531202c3939323436207b,
0x2c7d2030202c33373431202c38363431202c33313531202c3030333436207b,
0x2c7d2030202c34373431202c38363431202c33313531202c3130333436207b,
0x2c7d2030202c33363431202c38383431202c3230333436207b,
0x2c7d2030202c34363431202c38383431202c3330333436207b,
0x2c7d2030202c38363431202c38383431202c3430333436207b,
0x2c7d2030202c38363431202c39383431202c3530333436207b,
0x2c7d2030202c38363431202c30393431202c3630333436207b,
0x2c7d2030202c38363431202c31393431202c3730333436207b,
0x2c7d2030202c38363431202c32393431202c3830333436207b,
0x2c7d2030202c38363431202c33393431202c3930333436207b,
0x2c7d2030202c38363431202c34393431202c3031333436207b,
0x2c7d2030202c38363431202c36393431202c3231333436207b,
0x2c7d2030202c38363431202c37393431202c3331333436207b,
0x2c7d2030202c38363431202c38393431202c3431333436207b,
0x2c7d2030202c38363431202c39393431202c3531333436207b,
0x2c7d2030202c38363431202c30303531202c3631333436207b,
0x2c7d2030202c38363431202c32303531202c3831333436207b,
0x2c7d2030202c38363431202c34303531202c3032333436207b,
0x2c7d2030202c38363431202c35303531202c3132333436207b,
0x2c7d2030202c38363431202c37303531202c3332333436207b,
0x2c7d2030202c38363431202c38303531202c3432333436207b,
0x2c7d2030202c38363431202c30313531202c3632333436207b,
0x2c7d2030202c38363431202c31313531202c3732333436207b,
0x2c7d2030202c38363431202c32313531202c3832333436207b,
0x2c7d2030202c38363431202c33313531202c3932333436207b,
0x2c7d2030202c38363431202c34313531202c3033333436207b,
0x2c7d2030202c35363431202c33393431202c3133333436207b,
0x2c7d2030202c31373431202c39383431202c3233333436207b,
0x2c7d2030202c31373431202c39393431202c3333333436207b,
0x2c7d2030202c31373431202c38303531202c3433333436207b,
0x2c7d2030202c30303531202c38383431202c3533333436207b,
0x2c7d2030202c333737202c3233202c3739303536207b,
0x2c7d2030202c333737202c3233202c3839303536207b,
0x2c7d2030202c333737202c3233202c3939303536207b,
0x2c7d2030202c333737202c3233202c3030313536207b,
0x2c7d2030202c3539202c3130313536207b,
0x2c7d2030202c3539202c3230313536207b,
0x2c7d2030202c3539202c3330313536207b,
0x2c7d2030202c3831383936202c3538373936202c3638373936207b,
0x2c7d2030202c3831383936202c3738373936202c3838373936207b,
0x2c7d2030202c3831383936202c3739373936202c3330383936207b,
0x2c7d2030202c3732393936202c3733393936202c3433393936207b,
0x2c7d2030202c3732393936202c3833393936202c3533393936207b,
0x2c7d2030202c3236343037202c3137343037202c3537343037207b,
0x2c7d2030202c3738343037202c3137343037202c3637343037207b,
0x2c7d2030202c3234383037202c3134383037202c3334383037207b,
0x2c7d2030202c3233383037202c3134383037202c3434383037207b,
0x2c7d2030202c3534383037202c3134383037202c3634383037207b,
0x2c7d2030202c3738303137202c3639303137202c3839303137207b,
0x2c7d2030202c3738303137202c3739303137202c3939303137207b,
0x2c7d2030202c313431393131202c373231393131202c343331393131207b,
0x2c7d2030202c313431393131202c383231393131202c353331393131207b,
0x2c7d2030202c303531393131202c313431393131202c383231393131202c363331393131207b,
0x2c7d2030202c313531393131202c313431393131202c383231393131202c373331393131207b,
0x2c7d2030202c323531393131202c313431393131202c383231393131202c383331393131207b,
0x2c7d2030202c333531393131202c313431393131202c383231393131202c393331393131207b,
0x2c7d2030202c343531393131202c313431393131202c383231393131202c303431393131207b,
0x2c7d2030202c313431393131202c353232393131202c373232393131207b,
0x2c7d2030202c313431393131202c363232393131202c383232393131207b,
0x2c7d2030202c303531393131202c313431393131202c353232393131202c393232393131207b,
0x2c7d2030202c303531393131202c313431393131202c363232393131202c303332393131207b,
0x2c7d2030202c313531393131202c313431393131202c353232393131202c313332393131207b,
0x2c7d2030202c313531393131202c313431393131202c363232393131202c323332393131207b,
0x2c7d2030202c3634202c3834202c323332373231207b,
0x2c7d2030202c3434202c3834202c333332373231207b,
0x2c7d2030202c3434202c3934202c343332373231207b,
0x2c7d2030202c3434202c3035202c353332373231207b,
0x2c7d2030202c3434202c3135202c363332373231207b,
0x2c7d2030202c3434202c3235202c373332373231207b,
0x2c7d2030202c3434202c3335202c383332373231207b,
0x2c7d2030202c3434202c3435202c393332373231207b,
0x2c7d2030202c3434202c3535202c303432373231207b,
0x2c7d2030202c3434202c3635202c313432373231207b,
0x2c7d2030202c3434202c3735202c323432373231207b,
0x2c7d2030202c3134202c3536202c3034202c383432373231207b,
0x2c7d2030202c3134202c3636202c3034202c393432373231207b,
0x2c7d2030202c3134202c3736202c3034202c303532373231207b,
0x2c7d2030202c3134202c3836202c3034202c313532373231207b,
0x2c7d2030202c3134202c3936202c3034202c323532373231207b,
0x2c7d2030202c3134202c3037202c3034202c333532373231207b,
0x2c7d2030202c3134202c3137202c3034202c343532373231207b,
0x2c7d2030202c3134202c3237202c3034202c353532373231207b,
0x2c7d2030202c3134202c3337202c3034202c363532373231207b,
0x2c7d2030202c3134202c3437202c3034202c373532373231207b,
0x2c7d2030202c3134202c3537202c3034202c383532373231207b,
0x2c7d2030202c3134202c3637202c3034202c393532373231207b,
0x2c7d2030202c3134202c3737202c3034202c303632373231207b,
0x2c7d2030202c3134202c3837202c3034202c313632373231207b,
0x2c7d2030202c3134202c3937202c3034202c323632373231207b,
0x2c7d2030202c3134202c3038202c3034202c333632373231207b,
0x2c7d2030202c3134202c3138202c3034202c343632373231207b,
0x2c7d2030202c3134202c3238202c3034202c353632373231207b,
0x2c7d2030202c3134202c3338202c3034202c363632373231207b,
0x2c7d2030202c3134202c3438202c3034202c373632373231207b,
0x2c7d2030202c3134202c3538202c3034202c383632373231207b,
0x2c7d2030202c3134202c3638202c3034202c393632373231207b,
0x2c7d2030202c3134202c3738202c3034202c303732373231207b,
0x2c7d2030202c3134202c3838202c3034202c313732373231207b,
0x2c7d2030202c3134202c3938202c3034202c323732373231207b,
0x2c7d2030202c3134202c3039202c3034202c333732373231207b,
0x2c7d2030202c3930333231202c3338202c3830333231202c343732373231207b,
0x2c7d2030202c3930333231202c3231343632202c3830333231202c323535373231207b,
0x2c7d2030202c3930333231202c3737393931202c3830333231202c333535373231207b,
0x2c7d2030202c3930333231202c3830313032202c3830333231202c343535373231207b,
0x2c7d2030202c3930333231202c3333343332202c3830333231202c353535373231207b,
0x2c7d2030202c3930333231202c3735383832202c3830333231202c363535373231207b,
0x2c7d2030202c3930333231202c3137313532202c3830333231202c373535373231207b,
0x2c7d2030202c3930333231202c3332343033202c3830333231202c383535373231207b,
0x2c7d2030202c3930333231202c3331323132202c3830333231202c393535373231207b,
0x2c7d2030202c3930333231202c3334393532202c3830333231202c303635373231207b,
0x2c7d2030202c3932303032202c303635343931207b,
0x2c7d2030202c3432303032202c313635343931207b,
0x2c7d2030202c3333303032202c323635343931207b,
0x2c7d2030202c323633313331202c333635343931207b,
0x2c7d2030202c3032333032202c343635343931207b,
0x2c7d2030202c3839333032202c353635343931207b,
0x2c7d2030202c3131343032202c363635343931207b,
0x2c7d2030202c3238343032202c373635343931207b,
0x2c7d2030202c3230363032202c383635343931207b,
0x2c7d2030202c3333363032202c393635343931207b,
0x2c7d2030202c3131373032202c303735343931207b,
0x2c7d2030202c3738363032202c313735343931207b,
0x2c7d2030202c3037343331202c323735343931207b,
0x2c7d2030202c363636323331202c333735343931207b,
0x2c7d2030202c3331383032202c343735343931207b,
0x2c7d2030202c3032383032202c353735343931207b,
0x2c7d2030202c3633383032202c363735343931207b,
0x2c7d2030202c3535383032202c373735343931207b,
0x2c7d2030202c303833323331202c383735343931207b,
0x2c7d2030202c3739343331202c393735343931207b,
0x2c7d2030202c3933383032202c303835343931207b,
0x2c7d2030202c3737383032202c313835343931207b,
0x2c7d2030202c373234323331202c323835343931207b,
0x2c7d2030202c3738383032202c333835343931207b,
0x2c7d2030202c3030393032202c343835343931207b,
0x2c7d2030202c3237313032202c353835343931207b,
0x2c7d2030202c3830393032202c363835343931207b,
0x2c7d2030202c3731393032202c373835343931207b,
0x2c7d2030202c353134383631202c383835343931207b,
0x2c7d2030202c3138393032202c393835343931207b,
0x2c7d2030202c3539393032202c303935343931207b,
0x2c7d2030202c3533353331202c313935343931207b,
0x2c7d2030202c3135303132202c323935343931207b,
0x2c7d2030202c3236303132202c333935343931207b,
0x2c7d2030202c3630313132202c343935343931207b,
0x2c7d2030202c3131313132202c353935343931207b,
0x2c7d2030202c3938353331202c363935343931207b,
0x2c7d2030202c3139313132202c373935343931207b,
0x2c7d2030202c3339313132202c383935343931207b,
0x2c7d2030202c3032323132202c393935343931207b,
0x2c7d2030202c3234323132202c303036343931207b,
0x2c7d2030202c3335323132202c313036343931207b,
0x2c7d2030202c3435323132202c323036343931207b,
0x2c7d2030202c3137323132202c333036343931207b,
0x2c7d2030202c3132333132202c343036343931207b,
0x2c7d2030202c3932333132202c353036343931207b,
0x2c7d2030202c3833333132202c363036343931207b,
0x2c7d2030202c3336333132202c373036343931207b,
0x2c7d2030202c3337333132202c383036343931207b,
0x2c7d2030202c3537333132202c393036343931207b,
0x2c7d2030202c3537333132202c303136343931207b,
0x2c7d2030202c3537333132202c313136343931207b,
0x2c7d2030202c363736333331202c323136343931207b,
0x2c7d2030202c3438373832202c333136343931207b,
0x2c7d2030202c3035343132202c343136343931207b,
0x2c7d2030202c3137343132202c353136343931207b,
0x2c7d2030202c373839333331202c363136343931207b,
0x2c7d2030202c3338343132202c373136343931207b,
0x2c7d2030202c3938343132202c383136343931207b,
0x2c7d2030202c3031353132202c393136343931207b,
0x2c7d2030202c3236363132202c303236343931207b,
0x2c7d2030202c3036353132202c313236343931207b,
0x2c7d2030202c3637353132202c323236343931207b,
0x2c7d2030202c3830363132202c333236343931207b,
0x2c7d2030202c3636363132202c343236343931207b,
0x2c7d2030202c3035373132202c353236343931207b]

/-- src/u5e/props/compatibility_and_canonical_decomposition_mapping_data.hpp lines 2305-2560. -/
def rawKdecHdr9 : List Nat := [
0x2c7d2030202c3637373132202c363236343931207b,
0x2c7d2030202c3334383132202c373236343931207b,
0x2c7d2030202c3935383132202c383236343931207b,
0x2c7d2030202c3239383132202c393236343931207b,
0x2c7d2030202c3239383132202c303336343931207b,
0x2c7d2030202c3331393132202c313336343931207b,
0x2c7d2030202c3133393132202c323336343931207b,
0x2c7d2030202c3933393132202c333336343931207b,
0x2c7d2030202c3435393132202c343336343931207b,
0x2c7d2030202c3439323232202c353336343931207b,
0x2c7d2030202c3232303232202c363336343931207b,
0x2c7d2030202c3539323232202c373336343931207b,
0x2c7d2030202c3739303232202c383336343931207b,
0x2c7d2030202c3233313232202c393336343931207b,
0x2c7d2030202c3939393032202c303436343931207b,
0x2c7d2030202c3636373232202c313436343931207b,
0x2c7d2030202c3837343232202c323436343931207b,
0x2c7d2030202c3631353232202c333436343931207b,
0x2c7d2030202c3134353232202c343436343931207b,
0x2c7d2030202c3131343232202c353436343931207b,
0x2c7d2030202c3837353232202c363436343931207b,
0x2c7d2030202c3737353232202c373436343931207b,
0x2c7d2030202c3030373232202c383436343931207b,
0x2c7d2030202c303234363331202c393436343931207b,
0x2c7d2030202c3037373232202c303536343931207b,
0x2c7d2030202c3537373232202c313536343931207b,
0x2c7d2030202c3039373232202c323536343931207b,
0x2c7d2030202c3031383232202c333536343931207b,
0x2c7d2030202c3831383232202c343536343931207b,
0x2c7d2030202c3238383232202c353536343931207b,
0x2c7d2030202c323738363331202c363536343931207b,
0x2c7d2030202c383339363331202c373536343931207b,
0x2c7d2030202c3032303332202c383536343931207b,
0x2c7d2030202c3736303332202c393536343931207b,
0x2c7d2030202c3937303332202c303636343931207b,
0x2c7d2030202c3030303332202c313636343931207b,
0x2c7d2030202c3234313332202c323636343931207b,
0x2c7d2030202c3236303431202c333636343931207b,
0x2c7d2030202c3637303431202c343636343931207b,
0x2c7d2030202c3430333332202c353636343931207b,
0x2c7d2030202c3835333332202c363636343931207b,
0x2c7d2030202c3835333332202c373636343931207b,
0x2c7d2030202c323736373331202c383636343931207b,
0x2c7d2030202c3139343332202c393636343931207b,
0x2c7d2030202c3231353332202c303736343931207b,
0x2c7d2030202c3732353332202c313736343931207b,
0x2c7d2030202c3933353332202c323736343931207b,
0x2c7d2030202c383030383331202c333736343931207b,
0x2c7d2030202c3135353332202c343736343931207b,
0x2c7d2030202c3835353332202c353736343931207b,
0x2c7d2030202c3330343432202c363736343931207b,
0x2c7d2030202c3638353332202c373736343931207b,
0x2c7d2030202c3930323431202c383736343931207b,
0x2c7d2030202c3834363332202c393736343931207b,
0x2c7d2030202c3236363332202c303836343931207b,
0x2c7d2030202c3434373332202c313836343931207b,
0x2c7d2030202c3339363332202c323836343931207b,
0x2c7d2030202c343237383331202c333836343931207b,
0x2c7d2030202c3537383332202c343836343931207b,
0x2c7d2030202c363237383331202c353836343931207b,
0x2c7d2030202c3831393332202c363836343931207b,
0x2c7d2030202c3531393332202c373836343931207b,
0x2c7d2030202c3233393332202c383836343931207b,
0x2c7d2030202c3333303432202c393836343931207b,
0x2c7d2030202c3433303432202c303936343931207b,
0x2c7d2030202c3338333431202c313936343931207b,
0x2c7d2030202c3136303432202c323936343931207b,
0x2c7d2030202c3430313432202c333936343931207b,
0x2c7d2030202c3532313432202c343936343931207b,
0x2c7d2030202c3936313432202c353936343931207b,
0x2c7d2030202c3433343431202c363936343931207b,
0x2c7d2030202c313536393331202c373936343931207b,
0x2c7d2030202c3036343431202c383936343931207b,
0x2c7d2030202c3034323432202c393936343931207b,
0x2c7d2030202c3334323432202c303037343931207b,
0x2c7d2030202c3634323432202c313037343931207b,
0x2c7d2030202c3636323432202c323037343931207b,
0x2c7d2030202c363439323731202c333037343931207b,
0x2c7d2030202c3831333432202c343037343931207b,
0x2c7d2030202c313830303431202c353037343931207b,
0x2c7d2030202c313830303431202c363037343931207b,
0x2c7d2030202c3138323333202c373037343931207b,
0x2c7d2030202c3435333432202c383037343931207b,
0x2c7d2030202c3435333432202c393037343931207b,
0x2c7d2030202c3533353431202c303137343931207b,
0x2c7d2030202c363530343431202c313137343931207b,
0x2c7d2030202c323231363531202c323137343931207b,
0x2c7d2030202c3831343432202c333137343931207b,
0x2c7d2030202c3732343432202c343137343931207b,
0x2c7d2030202c3336353431202c353137343931207b,
0x2c7d2030202c3437343432202c363137343931207b,
0x2c7d2030202c3532353432202c373137343931207b,
0x2c7d2030202c3533353432202c383137343931207b,
0x2c7d2030202c3936353432202c393137343931207b,
0x2c7d2030202c3530373432202c303237343931207b,
0x2c7d2030202c3035363431202c313237343931207b,
0x2c7d2030202c3032363431202c323237343931207b,
0x2c7d2030202c3432373432202c333237343931207b,
0x2c7d2030202c323130313431202c343237343931207b,
0x2c7d2030202c3537373432202c353237343931207b,
0x2c7d2030202c3430393432202c363237343931207b,
0x2c7d2030202c3830393432202c373237343931207b,
0x2c7d2030202c3031393432202c383237343931207b,
0x2c7d2030202c3830393432202c393237343931207b,
0x2c7d2030202c3435393432202c303337343931207b,
0x2c7d2030202c3437393432202c313337343931207b,
0x2c7d2030202c3031303532202c323337343931207b,
0x2c7d2030202c3639393432202c333337343931207b,
0x2c7d2030202c3730303532202c343337343931207b,
0x2c7d2030202c3435303532202c353337343931207b,
0x2c7d2030202c3437303532202c363337343931207b,
0x2c7d2030202c3837303532202c373337343931207b,
0x2c7d2030202c3430313532202c383337343931207b,
0x2c7d2030202c3531313532202c393337343931207b,
0x2c7d2030202c3138313532202c303437343931207b,
0x2c7d2030202c3536323532202c313437343931207b,
0x2c7d2030202c3030333532202c323437343931207b,
0x2c7d2030202c3432343532202c333437343931207b,
0x2c7d2030202c323930323431202c343437343931207b,
0x2c7d2030202c3530343532202c353437343931207b,
0x2c7d2030202c3034333532202c363437343931207b,
0x2c7d2030202c3834343532202c373437343931207b,
0x2c7d2030202c3537343532202c383437343931207b,
0x2c7d2030202c3237353532202c393437343931207b,
0x2c7d2030202c313233323431202c303537343931207b,
0x2c7d2030202c3433363532202c313537343931207b,
0x2c7d2030202c3134353532202c323537343931207b,
0x2c7d2030202c3331353532202c333537343931207b,
0x2c7d2030202c3439383431202c343537343931207b,
0x2c7d2030202c3530373532202c353537343931207b,
0x2c7d2030202c3632373532202c363537343931207b,
0x2c7d2030202c3735373532202c373537343931207b,
0x2c7d2030202c3931373532202c383537343931207b,
0x2c7d2030202c3635393431202c393537343931207b,
0x2c7d2030202c3533393532202c303637343931207b,
0x2c7d2030202c3436393532202c313637343931207b,
0x2c7d2030202c303733333431202c323637343931207b,
0x2c7d2030202c3338303632202c333637343931207b,
0x2c7d2030202c3036333632202c343637343931207b,
0x2c7d2030202c3538313632202c353637343931207b,
0x2c7d2030202c3932313531202c363637343931207b,
0x2c7d2030202c3735323632202c373637343931207b,
0x2c7d2030202c3231313531202c383637343931207b,
0x2c7d2030202c3637303531202c393637343931207b,
0x2c7d2030202c3238383032202c303737343931207b,
0x2c7d2030202c3538383032202c313737343931207b,
0x2c7d2030202c3836333632202c323737343931207b,
0x2c7d2030202c3836323632202c333737343931207b,
0x2c7d2030202c3134393233202c343737343931207b,
0x2c7d2030202c3936333731202c353737343931207b,
0x2c7d2030202c3139333632202c363737343931207b,
0x2c7d2030202c3539333632202c373737343931207b,
0x2c7d2030202c3130343632202c383737343931207b,
0x2c7d2030202c3236343632202c393737343931207b,
0x2c7d2030202c3135343632202c303837343931207b,
0x2c7d2030202c333233343431202c313837343931207b,
0x2c7d2030202c3737313531202c323837343931207b,
0x2c7d2030202c3831363632202c333837343931207b,
0x2c7d2030202c3130353632202c343837343931207b,
0x2c7d2030202c3630373632202c353837343931207b,
0x2c7d2030202c3735373632202c363837343931207b,
0x2c7d2030202c333934343431202c373837343931207b,
0x2c7d2030202c3636373632202c383837343931207b,
0x2c7d2030202c3535363632202c393837343931207b,
0x2c7d2030202c3030393632202c303937343931207b,
0x2c7d2030202c3136323531202c313937343931207b,
0x2c7d2030202c3634393632202c323937343931207b,
0x2c7d2030202c3334303732202c333937343931207b,
0x2c7d2030202c3431313732202c343937343931207b,
0x2c7d2030202c3430333732202c353937343931207b,
0x2c7d2030202c393530353431202c363937343931207b,
0x2c7d2030202c3535333732202c373937343931207b,
0x2c7d2030202c3438333531202c383937343931207b,
0x2c7d2030202c3532343732202c393937343931207b,
0x2c7d2030202c353735353431202c303038343931207b,
0x2c7d2030202c3637343732202c313038343931207b,
0x2c7d2030202c3833343531202c323038343931207b,
0x2c7d2030202c3630353732202c333038343931207b,
0x2c7d2030202c3135353732202c343038343931207b,
0x2c7d2030202c3837353732202c353038343931207b,
0x2c7d2030202c3937353732202c363038343931207b,
0x2c7d2030202c313630363431202c373038343931207b,
0x2c7d2030202c373035383331202c383038343931207b,
0x2c7d2030202c303731363431202c393038343931207b,
0x2c7d2030202c3632373732202c303138343931207b,
0x2c7d2030202c303236363431202c313138343931207b,
0x2c7d2030202c3933383732202c323138343931207b,
0x2c7d2030202c3335383732202c333138343931207b,
0x2c7d2030202c3135373732202c343138343931207b,
0x2c7d2030202c3632393732202c353138343931207b,
0x2c7d2030202c3636393732202c363138343931207b,
0x2c7d2030202c3332303832202c373138343931207b,
0x2c7d2030202c3936393732202c383138343931207b,
0x2c7d2030202c3930303832202c393138343931207b,
0x2c7d2030202c3432303832202c303238343931207b,
0x2c7d2030202c3733303832202c313238343931207b,
0x2c7d2030202c383137363431202c323238343931207b,
0x2c7d2030202c3635393732202c333238343931207b,
0x2c7d2030202c3730323832202c343238343931207b,
0x2c7d2030202c3037323832202c353238343931207b,
0x2c7d2030202c3736363531202c363238343931207b,
0x2c7d2030202c3336333832202c373238343931207b,
0x2c7d2030202c3935333832202c383238343931207b,
0x2c7d2030202c333531373431202c393238343931207b,
0x2c7d2030202c3335313832202c303338343931207b,
0x2c7d2030202c3632353832202c313338343931207b,
0x2c7d2030202c343932373431202c323338343931207b,
0x2c7d2030202c323433373431202c333338343931207b,
0x2c7d2030202c3431363832202c343338343931207b,
0x2c7d2030202c3932373832202c353338343931207b,
0x2c7d2030202c3230373832202c363338343931207b,
0x2c7d2030202c3939363832202c373338343931207b,
0x2c7d2030202c3636373531202c383338343931207b,
0x2c7d2030202c3634373832202c393338343931207b,
0x2c7d2030202c3739373832202c303438343931207b,
0x2c7d2030202c3139373832202c313438343931207b,
0x2c7d2030202c3534383832202c323438343931207b,
0x2c7d2030202c393833323331202c333438343931207b,
0x2c7d2030202c3739393832202c343438343931207b,
0x2c7d2030202c373630383431202c353438343931207b,
0x2c7d2030202c3438303932202c363438343931207b,
0x2c7d2030202c353933383431202c373438343931207b,
0x2c7d2030202c3432323932202c383438343931207b,
0x2c7d2030202c3733323932202c393438343931207b,
0x2c7d2030202c3436323932202c303538343931207b,
0x2c7d2030202c303030393431202c313538343931207b,
0x2c7d2030202c3231333932202c323538343931207b,
0x2c7d2030202c3333333932202c333538343931207b,
0x2c7d2030202c313033393431202c343538343931207b,
0x2c7d2030202c343235393431202c353538343931207b,
0x2c7d2030202c3236353932202c363538343931207b,
0x2c7d2030202c3937353932202c373538343931207b,
0x2c7d2030202c3434303631202c383538343931207b,
0x2c7d2030202c3530363932202c393538343931207b,
0x2c7d2030202c3635303631202c303638343931207b,
0x2c7d2030202c3635303631202c313638343931207b,
0x2c7d2030202c3736373932202c323638343931207b,
0x2c7d2030202c3838373932202c333638343931207b,
0x2c7d2030202c3930383932202c343638343931207b,
0x2c7d2030202c3932383932202c353638343931207b,
0x2c7d2030202c3839383932202c363638343931207b,
0x2c7d2030202c3535313631202c373638343931207b,
0x2c7d2030202c3838393932202c383638343931207b,
0x2c7d2030202c323835303531202c393638343931207b,
0x2c7d2030202c3431303033202c303738343931207b,
0x2c7d2030202c343736303531202c313738343931207b,
0x2c7d2030202c3436303033202c323738343931207b,
0x2c7d2030202c393736393331202c333738343931207b,
0x2c7d2030202c3432323033202c343738343931207b,
0x2c7d2030202c373534313531202c353738343931207b,
0x2c7d2030202c303834313531202c363738343931207b,
0x2c7d2030202c303236313531202c373738343931207b,
0x2c7d2030202c3038333631202c383738343931207b,
0x2c7d2030202c3239333631202c393738343931207b,
0x2c7d2030202c3235343033202c303838343931207b,
0x2c7d2030202c353937313531202c313838343931207b]

/-- src/u5e/props/compatibility_and_canonical_decomposition_mapping_data.hpp lines 2561-2780. -/
def rawKdecHdr10 : List Nat := [
0x2c7d2030202c343937313531202c323838343931207b,
0x2c7d2030202c333338313531202c333838343931207b,
0x2c7d2030202c393538313531202c343838343931207b,
0x2c7d2030202c3439343033202c353838343931207b,
0x2c7d2030202c3539343033202c363838343931207b,
0x2c7d2030202c3539343033202c373838343931207b,
0x2c7d2030202c3833353033202c383838343931207b,
0x2c7d2030202c3134343631202c393838343931207b,
0x2c7d2030202c3330363033202c303938343931207b,
0x2c7d2030202c3435343631202c313938343931207b,
0x2c7d2030202c3433353631202c323938343931207b,
0x2c7d2030202c353036323531202c333938343931207b,
0x2c7d2030202c3839373033202c343938343931207b,
0x2c7d2030202c3036383033202c353938343931207b,
0x2c7d2030202c3432393033202c363938343931207b,
0x2c7d2030202c3131363631202c373938343931207b,
0x2c7d2030202c363231333531202c383938343931207b,
0x2c7d2030202c3236303133202c393938343931207b,
0x2c7d2030202c323432333531202c303039343931207b,
0x2c7d2030202c353832333531202c313039343931207b,
0x2c7d2030202c3931313133202c323039343931207b,
0x2c7d2030202c3131323133202c333039343931207b,
0x2c7d2030202c3738363631202c343039343931207b,
0x2c7d2030202c3639323133202c353039343931207b,
0x2c7d2030202c3630333133202c363039343931207b,
0x2c7d2030202c3131333133202c373039343931207b,
0x2c7d2030202c303839333531202c383039343931207b,
0x2c7d2030202c393732343531202c393039343931207b,
0x2c7d2030202c393732343531202c303139343931207b,
0x2c7d2030202c3037343133202c313139343931207b,
0x2c7d2030202c3839383631202c323139343931207b,
0x2c7d2030202c393335343531202c333139343931207b,
0x2c7d2030202c3638363133202c343139343931207b,
0x2c7d2030202c3938363133202c353139343931207b,
0x2c7d2030202c3533393631202c363139343931207b,
0x2c7d2030202c323537343531202c373139343931207b,
0x2c7d2030202c3435393133202c383139343931207b,
0x2c7d2030202c3635303731202c393139343931207b,
0x2c7d2030202c3637393133202c303239343931207b,
0x2c7d2030202c3137393133202c313239343931207b,
0x2c7d2030202c3030303233202c323239343931207b,
0x2c7d2030202c363235353531202c333239343931207b,
0x2c7d2030202c3939303233202c343239343931207b,
0x2c7d2030202c3335313731202c353239343931207b,
0x2c7d2030202c3939313233202c363239343931207b,
0x2c7d2030202c3835323233202c373239343931207b,
0x2c7d2030202c3532333233202c383239343931207b,
0x2c7d2030202c3430323731202c393239343931207b,
0x2c7d2030202c303032363531202c303339343931207b,
0x2c7d2030202c313332363531202c313339343931207b,
0x2c7d2030202c3134323731202c323339343931207b,
0x2c7d2030202c373733363531202c333339343931207b,
0x2c7d2030202c3433363233202c343339343931207b,
0x2c7d2030202c383734363531202c353339343931207b,
0x2c7d2030202c3136363233202c363339343931207b,
0x2c7d2030202c3236373233202c373339343931207b,
0x2c7d2030202c3337373233202c383339343931207b,
0x2c7d2030202c303938363531202c393339343931207b,
0x2c7d2030202c333639363531202c303439343931207b,
0x2c7d2030202c3436383233202c313439343931207b,
0x2c7d2030202c363930373531202c323439343931207b,
0x2c7d2030202c3038383233202c333439343931207b,
0x2c7d2030202c333232343431202c343439343931207b,
0x2c7d2030202c3536333731202c353439343931207b,
0x2c7d2030202c3634393233202c363439343931207b,
0x2c7d2030202c3732303333202c373439343931207b,
0x2c7d2030202c3931343731202c383439343931207b,
0x2c7d2030202c3638303333202c393439343931207b,
0x2c7d2030202c3132323332202c303539343931207b,
0x2c7d2030202c373036373531202c313539343931207b,
0x2c7d2030202c313236373531202c323539343931207b,
0x2c7d2030202c353732343431202c333539343931207b,
0x2c7d2030202c343832343431202c343539343931207b,
0x2c7d2030202c3138323333202c353539343931207b,
0x2c7d2030202c3438323333202c363539343931207b,
0x2c7d2030202c3636373633202c373539343931207b,
0x2c7d2030202c3531353731202c383539343931207b,
0x2c7d2030202c3532343333202c393539343931207b,
0x2c7d2030202c3931343333202c303639343931207b,
0x2c7d2030202c3733343333202c313639343931207b,
0x2c7d2030202c3137313132202c323639343931207b,
0x2c7d2030202c3735343333202c333639343931207b,
0x2c7d2030202c3935343333202c343639343931207b,
0x2c7d2030202c3936343333202c353639343931207b,
0x2c7d2030202c3031353333202c363639343931207b,
0x2c7d2030202c343235383531202c373639343931207b,
0x2c7d2030202c3930353333202c383639343931207b,
0x2c7d2030202c3536353333202c393639343931207b,
0x2c7d2030202c3533363333202c303739343931207b,
0x2c7d2030202c3930373333202c313739343931207b,
0x2c7d2030202c3137353333202c323739343931207b,
0x2c7d2030202c3532373333202c333739343931207b,
0x2c7d2030202c3736373333202c343739343931207b,
0x2c7d2030202c3937383333202c353739343931207b,
0x2c7d2030202c3931363333202c363739343931207b,
0x2c7d2030202c3833373333202c373739343931207b,
0x2c7d2030202c3034373333202c383739343931207b,
0x2c7d2030202c3635373333202c393739343931207b,
0x2c7d2030202c343737383531202c303839343931207b,
0x2c7d2030202c333830393531202c313839343931207b,
0x2c7d2030202c333339383531202c323839343931207b,
0x2c7d2030202c3730373731202c333839343931207b,
0x2c7d2030202c3333303433202c343839343931207b,
0x2c7d2030202c3533303433202c353839343931207b,
0x2c7d2030202c3037303433202c363839343931207b,
0x2c7d2030202c343137303631202c373839343931207b,
0x2c7d2030202c3834313433202c383839343931207b,
0x2c7d2030202c323335393531202c393839343931207b,
0x2c7d2030202c3735373731202c303939343931207b,
0x2c7d2030202c3136373731202c313939343931207b,
0x2c7d2030202c353636393531202c323939343931207b,
0x2c7d2030202c343539393531202c333939343931207b,
0x2c7d2030202c3137373731202c343939343931207b,
0x2c7d2030202c3438333433202c353939343931207b,
0x2c7d2030202c3639333433202c363939343931207b,
0x2c7d2030202c3730343433202c373939343931207b,
0x2c7d2030202c3930343433202c383939343931207b,
0x2c7d2030202c3337343433202c393939343931207b,
0x2c7d2030202c3034343433202c303030353931207b,
0x2c7d2030202c3437353433202c313030353931207b,
0x2c7d2030202c3033353433202c323030353931207b,
0x2c7d2030202c3138363433202c333030353931207b,
0x2c7d2030202c3030363433202c343030353931207b,
0x2c7d2030202c3736363433202c353030353931207b,
0x2c7d2030202c3439363433202c363030353931207b,
0x2c7d2030202c3937383731202c373030353931207b,
0x2c7d2030202c3538373433202c383030353931207b,
0x2c7d2030202c3731383433202c393030353931207b,
0x2c7d2030202c3331393731202c303130353931207b,
0x2c7d2030202c3231393433202c313130353931207b,
0x2c7d2030202c3531393433202c323130353931207b,
0x2c7d2030202c333833313631202c333130353931207b,
0x2c7d2030202c3133303533202c343130353931207b,
0x2c7d2030202c3833303533202c353130353931207b,
0x2c7d2030202c3337393731202c363130353931207b,
0x2c7d2030202c3636303533202c373130353931207b,
0x2c7d2030202c3939343331202c383130353931207b,
0x2c7d2030202c363639313631202c393130353931207b,
0x2c7d2030202c303531323631202c303230353931207b,
0x2c7d2030202c3031313831202c313230353931207b,
0x2c7d2030202c3931313831202c323230353931207b,
0x2c7d2030202c3838343533202c333230353931207b,
0x2c7d2030202c3536353533202c343230353931207b,
0x2c7d2030202c3232373533202c353230353931207b,
0x2c7d2030202c3532393533202c363230353931207b,
0x2c7d2030202c343839323631202c373230353931207b,
0x2c7d2030202c3131303633202c383230353931207b,
0x2c7d2030202c3333303633202c393230353931207b,
0x2c7d2030202c3332313633202c303330353931207b,
0x2c7d2030202c3531323633202c313330353931207b,
0x2c7d2030202c313336333631202c323330353931207b,
0x2c7d2030202c343231333331202c333330353931207b,
0x2c7d2030202c3939323633202c343330353931207b,
0x2c7d2030202c3438323633202c353330353931207b,
0x2c7d2030202c3633333633202c363330353931207b,
0x2c7d2030202c323433333331202c373330353931207b,
0x2c7d2030202c3436353633202c383330353931207b,
0x2c7d2030202c3436363633202c393330353931207b,
0x2c7d2030202c303333353631202c303430353931207b,
0x2c7d2030202c373533353631202c313430353931207b,
0x2c7d2030202c3231303733202c323430353931207b,
0x2c7d2030202c3530313733202c333430353931207b,
0x2c7d2030202c3733313733202c343430353931207b,
0x2c7d2030202c383736353631202c353430353931207b,
0x2c7d2030202c3734313733202c363430353931207b,
0x2c7d2030202c3233343733202c373430353931207b,
0x2c7d2030202c3139353733202c383430353931207b,
0x2c7d2030202c3239353733202c393430353931207b,
0x2c7d2030202c3030353733202c303530353931207b,
0x2c7d2030202c3138383733202c313530353931207b,
0x2c7d2030202c3930393733202c323530353931207b,
0x2c7d2030202c363039363631202c333530353931207b,
0x2c7d2030202c3338323833202c343530353931207b,
0x2c7d2030202c3733383831202c353530353931207b,
0x2c7d2030202c3732333833202c363530353931207b,
0x2c7d2030202c373832373631202c373530353931207b,
0x2c7d2030202c3831393831202c383530353931207b,
0x2c7d2030202c3539353833202c393530353931207b,
0x2c7d2030202c3638393332202c303630353931207b,
0x2c7d2030202c3139363833202c313630353931207b,
0x2c7d2030202c313632383631202c323630353931207b,
0x2c7d2030202c343734383631202c333630353931207b,
0x2c7d2030202c3435303931202c343630353931207b,
0x2c7d2030202c3236303931202c353630353931207b,
0x2c7d2030202c3038383833202c363630353931207b,
0x2c7d2030202c303739383631202c373630353931207b,
0x2c7d2030202c3232313931202c383630353931207b,
0x2c7d2030202c303131393631202c393630353931207b,
0x2c7d2030202c3332393833202c303730353931207b,
0x2c7d2030202c3332393833202c313730353931207b,
0x2c7d2030202c3335393833202c323730353931207b,
0x2c7d2030202c383933393631202c333730353931207b,
0x2c7d2030202c3833313933202c343730353931207b,
0x2c7d2030202c3135323931202c353730353931207b,
0x2c7d2030202c3930323933202c363730353931207b,
0x2c7d2030202c3533333933202c373730353931207b,
0x2c7d2030202c3236333933202c383730353931207b,
0x2c7d2030202c3232343933202c393730353931207b,
0x2c7d2030202c3630343931202c303830353931207b,
0x2c7d2030202c303038303731202c313830353931207b,
0x2c7d2030202c3839363933202c323830353931207b,
0x2c7d2030202c3030303034202c333830353931207b,
0x2c7d2030202c3938313034202c343830353931207b,
0x2c7d2030202c3236363931202c353830353931207b,
0x2c7d2030202c3339363931202c363830353931207b,
0x2c7d2030202c3539323034202c373830353931207b,
0x2c7d2030202c383332323731202c383830353931207b,
0x2c7d2030202c3430373931202c393830353931207b,
0x2c7d2030202c333932323731202c303930353931207b,
0x2c7d2030202c383535323731202c313930353931207b,
0x2c7d2030202c393836323731202c323930353931207b,
0x2c7d2030202c3533363034202c333930353931207b,
0x2c7d2030202c3839373931202c343930353931207b,
0x2c7d2030202c3739363034202c353930353931207b,
0x2c7d2030202c3230373034202c363930353931207b,
0x2c7d2030202c3930373034202c373930353931207b,
0x2c7d2030202c3931373034202c383930353931207b,
0x2c7d2030202c3632373034202c393930353931207b,
0x2c7d2030202c3336373034202c303031353931207b,
0x7d2030202c383635333731202c313031353931207b]

/-- The lines of src/u5e/props/compatibility_and_canonical_decomposition_mapping_data.hpp (the last one without a newline). -/
@[irreducible] def kdecHeaderRaw : List Nat :=
  rawKdecHdr0 ++ (rawKdecHdr1 ++ (rawKdecHdr2 ++ (rawKdecHdr3 ++ (rawKdecHdr4 ++ (rawKdecHdr5 ++ (rawKdecHdr6 ++ (rawKdecHdr7 ++ (rawKdecHdr8 ++ (rawKdecHdr9 ++ (rawKdecHdr10))))))))))

end U5e.Data
