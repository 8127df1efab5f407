set_option maxRecDepth 10000
/-! GENERATED by tools/gen_raw.py: the octets of src/u5e/props/canonical_composition_mapping_data.hpp, one number per line (little-endian). -/
namespace U5e.Data

/-- src/u5e/props/canonical_composition_mapping_data.hpp lines 1-256. -/
def rawCompHdr0 : List Nat := [
0x2c7d2034313838202c343238202c3036207b,
0x2c7d2030303838202c343238202c3136207b,
0x2c7d2035313838202c343238202c3236207b,
0x2c7d20323931202c383637202c3536207b,
0x2c7d20333931202c393637202c3536207b,
0x2c7d20343931202c303737202c3536207b,
0x2c7d20353931202c313737202c3536207b,
0x2c7d20363532202c323737202c3536207b,
0x2c7d20383532202c343737202c3536207b,
0x2c7d20303535202c353737202c3536207b,
0x2c7d20363931202c363737202c3536207b,
0x2c7d2032343837202c373737202c3536207b,
0x2c7d20373931202c383737202c3536207b,
0x2c7d20313634202c303837202c3536207b,
0x2c7d20323135202c333837202c3536207b,
0x2c7d20343135202c353837202c3536207b,
0x2c7d2030343837202c333038202c3536207b,
0x2c7d2030383637202c353038202c3536207b,
0x2c7d20303632202c383038202c3536207b,
0x2c7d2032383637202c353737202c3636207b,
0x2c7d2034383637202c333038202c3636207b,
0x2c7d2036383637202c373138202c3636207b,
0x2c7d20323632202c393637202c3736207b,
0x2c7d20343632202c303737202c3736207b,
0x2c7d20363632202c353737202c3736207b,
0x2c7d20383632202c303837202c3736207b,
0x2c7d20393931202c373038202c3736207b,
0x2c7d2030393637202c353737202c3836207b,
0x2c7d20303732202c303837202c3836207b,
0x2c7d2032393637202c333038202c3836207b,
0x2c7d2036393637202c373038202c3836207b,
0x2c7d2038393637202c333138202c3836207b,
0x2c7d2034393637202c373138202c3836207b,
0x2c7d20303032202c383637202c3936207b,
0x2c7d20313032202c393637202c3936207b,
0x2c7d20323032202c303737202c3936207b,
0x2c7d2038363837202c313737202c3936207b,
0x2c7d20343732202c323737202c3936207b,
0x2c7d20363732202c343737202c3936207b,
0x2c7d20383732202c353737202c3936207b,
0x2c7d20333032202c363737202c3936207b,
0x2c7d2036363837202c373737202c3936207b,
0x2c7d20323832202c303837202c3936207b,
0x2c7d20363135202c333837202c3936207b,
0x2c7d20383135202c353837202c3936207b,
0x2c7d2034363837202c333038202c3936207b,
0x2c7d20323535202c373038202c3936207b,
0x2c7d20303832202c383038202c3936207b,
0x2c7d2034303737202c333138202c3936207b,
0x2c7d2036303737202c363138202c3936207b,
0x2c7d2030313737202c353737202c3037207b,
0x2c7d20303035202c393637202c3137207b,
0x2c7d20343832202c303737202c3137207b,
0x2c7d2032313737202c323737202c3137207b,
0x2c7d20363832202c343737202c3137207b,
0x2c7d20383832202c353737202c3137207b,
0x2c7d20363834202c303837202c3137207b,
0x2c7d20303932202c373038202c3137207b,
0x2c7d20323932202c303737202c3237207b,
0x2c7d2034313737202c353737202c3237207b,
0x2c7d2038313737202c363737202c3237207b,
0x2c7d20323435202c303837202c3237207b,
0x2c7d2036313737202c333038202c3237207b,
0x2c7d2030323737202c373038202c3237207b,
0x2c7d2032323737202c343138202c3237207b,
0x2c7d20343032202c383637202c3337207b,
0x2c7d20353032202c393637202c3337207b,
0x2c7d20363032202c303737202c3337207b,
0x2c7d20363932202c313737202c3337207b,
0x2c7d20383932202c323737202c3337207b,
0x2c7d20303033202c343737202c3337207b,
0x2c7d20343033202c353737202c3337207b,
0x2c7d20373032202c363737202c3337207b,
0x2c7d2030383837202c373737202c3337207b,
0x2c7d20333634202c303837202c3337207b,
0x2c7d20303235202c333837202c3337207b,
0x2c7d20323235202c353837202c3337207b,
0x2c7d2032383837202c333038202c3337207b,
0x2c7d20323033202c383038202c3337207b,
0x2c7d2034323737202c363138202c3337207b,
0x2c7d20383033202c303737202c3437207b,
0x2c7d2038323737202c393637202c3537207b,
0x2c7d20383834202c303837202c3537207b,
0x2c7d2030333737202c333038202c3537207b,
0x2c7d20303133202c373038202c3537207b,
0x2c7d2032333737202c373138202c3537207b,
0x2c7d20333133202c393637202c3637207b,
0x2c7d20373133202c303837202c3637207b,
0x2c7d2034333737202c333038202c3637207b,
0x2c7d20353133202c373038202c3637207b,
0x2c7d2030343737202c333138202c3637207b,
0x2c7d2038333737202c373138202c3637207b,
0x2c7d2032343737202c393637202c3737207b,
0x2c7d2034343737202c353737202c3737207b,
0x2c7d2036343737202c333038202c3737207b,
0x2c7d20343035202c383637202c3837207b,
0x2c7d20333233202c393637202c3837207b,
0x2c7d20393032202c313737202c3837207b,
0x2c7d2038343737202c353737202c3837207b,
0x2c7d20373233202c303837202c3837207b,
0x2c7d2030353737202c333038202c3837207b,
0x2c7d20353233202c373038202c3837207b,
0x2c7d2034353737202c333138202c3837207b,
0x2c7d2032353737202c373138202c3837207b,
0x2c7d20303132202c383637202c3937207b,
0x2c7d20313132202c393637202c3937207b,
0x2c7d20323132202c303737202c3937207b,
0x2c7d20333132202c313737202c3937207b,
0x2c7d20323333202c323737202c3937207b,
0x2c7d20343333202c343737202c3937207b,
0x2c7d20383535202c353737202c3937207b,
0x2c7d20343132202c363737202c3937207b,
0x2c7d2036383837202c373737202c3937207b,
0x2c7d20363333202c393737202c3937207b,
0x2c7d20353634202c303837202c3937207b,
0x2c7d20343235202c333837202c3937207b,
0x2c7d20363235202c353837202c3937207b,
0x2c7d20363134202c353937202c3937207b,
0x2c7d2034383837202c333038202c3937207b,
0x2c7d20303934202c383038202c3937207b,
0x2c7d2034363737202c393637202c3038207b,
0x2c7d2036363737202c353737202c3038207b,
0x2c7d20303433202c393637202c3238207b,
0x2c7d2038363737202c353737202c3238207b,
0x2c7d20343433202c303837202c3238207b,
0x2c7d20383235202c333837202c3238207b,
0x2c7d20303335202c353837202c3238207b,
0x2c7d2030373737202c333038202c3238207b,
0x2c7d20323433202c373038202c3238207b,
0x2c7d2034373737202c373138202c3238207b,
0x2c7d20363433202c393637202c3338207b,
0x2c7d20383433202c303737202c3338207b,
0x2c7d2036373737202c353737202c3338207b,
0x2c7d20323533202c303837202c3338207b,
0x2c7d2038373737202c333038202c3338207b,
0x2c7d20363335202c363038202c3338207b,
0x2c7d20303533202c373038202c3338207b,
0x2c7d2036383737202c353737202c3438207b,
0x2c7d20363533202c303837202c3438207b,
0x2c7d2038383737202c333038202c3438207b,
0x2c7d20383335202c363038202c3438207b,
0x2c7d20343533202c373038202c3438207b,
0x2c7d2032393737202c333138202c3438207b,
0x2c7d2030393737202c373138202c3438207b,
0x2c7d20373132202c383637202c3538207b,
0x2c7d20383132202c393637202c3538207b,
0x2c7d20393132202c303737202c3538207b,
0x2c7d20303633202c313737202c3538207b,
0x2c7d20323633202c323737202c3538207b,
0x2c7d20343633202c343737202c3538207b,
0x2c7d20303232202c363737202c3538207b,
0x2c7d2030313937202c373737202c3538207b,
0x2c7d20363633202c383737202c3538207b,
0x2c7d20383633202c393737202c3538207b,
0x2c7d20373634202c303837202c3538207b,
0x2c7d20323335202c333837202c3538207b,
0x2c7d20343335202c353837202c3538207b,
0x2c7d20313334202c353937202c3538207b,
0x2c7d2038303937202c333038202c3538207b,
0x2c7d2034393737202c343038202c3538207b,
0x2c7d20303733202c383038202c3538207b,
0x2c7d2038393737202c333138202c3538207b,
0x2c7d2036393737202c363138202c3538207b,
0x2c7d2034303837202c313737202c3638207b,
0x2c7d2036303837202c333038202c3638207b,
0x2c7d2038303837202c383637202c3738207b,
0x2c7d2030313837202c393637202c3738207b,
0x2c7d20323733202c303737202c3738207b,
0x2c7d2034313837202c353737202c3738207b,
0x2c7d2032313837202c363737202c3738207b,
0x2c7d2036313837202c333038202c3738207b,
0x2c7d2038313837202c353737202c3838207b,
0x2c7d2030323837202c363737202c3838207b,
0x2c7d2032323937202c383637202c3938207b,
0x2c7d20313232202c393637202c3938207b,
0x2c7d20343733202c303737202c3938207b,
0x2c7d2038323937202c313737202c3938207b,
0x2c7d20323635202c323737202c3938207b,
0x2c7d2032323837202c353737202c3938207b,
0x2c7d20363733202c363737202c3938207b,
0x2c7d2036323937202c373737202c3938207b,
0x2c7d2034323937202c333038202c3938207b,
0x2c7d20373733202c393637202c3039207b,
0x2c7d2034323837202c303737202c3039207b,
0x2c7d20393733202c353737202c3039207b,
0x2c7d20313833202c303837202c3039207b,
0x2c7d2036323837202c333038202c3039207b,
0x2c7d2038323837202c373138202c3039207b,
0x2c7d20343232202c383637202c3739207b,
0x2c7d20353232202c393637202c3739207b,
0x2c7d20363232202c303737202c3739207b,
0x2c7d20373232202c313737202c3739207b,
0x2c7d20373532202c323737202c3739207b,
0x2c7d20393532202c343737202c3739207b,
0x2c7d20313535202c353737202c3739207b,
0x2c7d20383232202c363737202c3739207b,
0x2c7d2033343837202c373737202c3739207b,
0x2c7d20393232202c383737202c3739207b,
0x2c7d20323634202c303837202c3739207b,
0x2c7d20333135202c333837202c3739207b,
0x2c7d20353135202c353837202c3739207b,
0x2c7d2031343837202c333038202c3739207b,
0x2c7d2031383637202c353038202c3739207b,
0x2c7d20313632202c383038202c3739207b,
0x2c7d2033383637202c353737202c3839207b,
0x2c7d2035383637202c333038202c3839207b,
0x2c7d2037383637202c373138202c3839207b,
0x2c7d20333632202c393637202c3939207b,
0x2c7d20353632202c303737202c3939207b,
0x2c7d20373632202c353737202c3939207b,
0x2c7d20393632202c303837202c3939207b,
0x2c7d20313332202c373038202c3939207b,
0x2c7d2031393637202c353737202c303031207b,
0x2c7d20313732202c303837202c303031207b,
0x2c7d2033393637202c333038202c303031207b,
0x2c7d2037393637202c373038202c303031207b,
0x2c7d2039393637202c333138202c303031207b,
0x2c7d2035393637202c373138202c303031207b,
0x2c7d20323332202c383637202c313031207b,
0x2c7d20333332202c393637202c313031207b,
0x2c7d20343332202c303737202c313031207b,
0x2c7d2039363837202c313737202c313031207b,
0x2c7d20353732202c323737202c313031207b,
0x2c7d20373732202c343737202c313031207b,
0x2c7d20393732202c353737202c313031207b,
0x2c7d20353332202c363737202c313031207b,
0x2c7d2037363837202c373737202c313031207b,
0x2c7d20333832202c303837202c313031207b,
0x2c7d20373135202c333837202c313031207b,
0x2c7d20393135202c353837202c313031207b,
0x2c7d2035363837202c333038202c313031207b,
0x2c7d20333535202c373038202c313031207b,
0x2c7d20313832202c383038202c313031207b,
0x2c7d2035303737202c333138202c313031207b,
0x2c7d2037303737202c363138202c313031207b,
0x2c7d2031313737202c353737202c323031207b,
0x2c7d20313035202c393637202c333031207b,
0x2c7d20353832202c303737202c333031207b,
0x2c7d2033313737202c323737202c333031207b,
0x2c7d20373832202c343737202c333031207b,
0x2c7d20393832202c353737202c333031207b,
0x2c7d20373834202c303837202c333031207b,
0x2c7d20313932202c373038202c333031207b,
0x2c7d20333932202c303737202c343031207b,
0x2c7d2035313737202c353737202c343031207b,
0x2c7d2039313737202c363737202c343031207b,
0x2c7d20333435202c303837202c343031207b,
0x2c7d2037313737202c333038202c343031207b,
0x2c7d2031323737202c373038202c343031207b,
0x2c7d2033323737202c343138202c343031207b,
0x2c7d2030333837202c373138202c343031207b,
0x2c7d20363332202c383637202c353031207b,
0x2c7d20373332202c393637202c353031207b,
0x2c7d20383332202c303737202c353031207b,
0x2c7d20373932202c313737202c353031207b,
0x2c7d20393932202c323737202c353031207b]

/-- src/u5e/props/canonical_composition_mapping_data.hpp lines 257-512. -/
def rawCompHdr1 : List Nat := [
0x2c7d20313033202c343737202c353031207b,
0x2c7d20393332202c363737202c353031207b,
0x2c7d2031383837202c373737202c353031207b,
0x2c7d20343634202c303837202c353031207b,
0x2c7d20313235202c333837202c353031207b,
0x2c7d20333235202c353837202c353031207b,
0x2c7d2033383837202c333038202c353031207b,
0x2c7d20333033202c383038202c353031207b,
0x2c7d2035323737202c363138202c353031207b,
0x2c7d20393033202c303737202c363031207b,
0x2c7d20363934202c303837202c363031207b,
0x2c7d2039323737202c393637202c373031207b,
0x2c7d20393834202c303837202c373031207b,
0x2c7d2031333737202c333038202c373031207b,
0x2c7d20313133202c373038202c373031207b,
0x2c7d2033333737202c373138202c373031207b,
0x2c7d20343133202c393637202c383031207b,
0x2c7d20383133202c303837202c383031207b,
0x2c7d2035333737202c333038202c383031207b,
0x2c7d20363133202c373038202c383031207b,
0x2c7d2031343737202c333138202c383031207b,
0x2c7d2039333737202c373138202c383031207b,
0x2c7d2033343737202c393637202c393031207b,
0x2c7d2035343737202c353737202c393031207b,
0x2c7d2037343737202c333038202c393031207b,
0x2c7d20353035202c383637202c303131207b,
0x2c7d20343233202c393637202c303131207b,
0x2c7d20313432202c313737202c303131207b,
0x2c7d2039343737202c353737202c303131207b,
0x2c7d20383233202c303837202c303131207b,
0x2c7d2031353737202c333038202c303131207b,
0x2c7d20363233202c373038202c303131207b,
0x2c7d2035353737202c333138202c303131207b,
0x2c7d2033353737202c373138202c303131207b,
0x2c7d20323432202c383637202c313131207b,
0x2c7d20333432202c393637202c313131207b,
0x2c7d20343432202c303737202c313131207b,
0x2c7d20353432202c313737202c313131207b,
0x2c7d20333333202c323737202c313131207b,
0x2c7d20353333202c343737202c313131207b,
0x2c7d20393535202c353737202c313131207b,
0x2c7d20363432202c363737202c313131207b,
0x2c7d2037383837202c373737202c313131207b,
0x2c7d20373333202c393737202c313131207b,
0x2c7d20363634202c303837202c313131207b,
0x2c7d20353235202c333837202c313131207b,
0x2c7d20373235202c353837202c313131207b,
0x2c7d20373134202c353937202c313131207b,
0x2c7d2035383837202c333038202c313131207b,
0x2c7d20313934202c383038202c313131207b,
0x2c7d2035363737202c393637202c323131207b,
0x2c7d2037363737202c353737202c323131207b,
0x2c7d20313433202c393637202c343131207b,
0x2c7d2039363737202c353737202c343131207b,
0x2c7d20353433202c303837202c343131207b,
0x2c7d20393235202c333837202c343131207b,
0x2c7d20313335202c353837202c343131207b,
0x2c7d2031373737202c333038202c343131207b,
0x2c7d20333433202c373038202c343131207b,
0x2c7d2035373737202c373138202c343131207b,
0x2c7d20373433202c393637202c353131207b,
0x2c7d20393433202c303737202c353131207b,
0x2c7d2037373737202c353737202c353131207b,
0x2c7d20333533202c303837202c353131207b,
0x2c7d2039373737202c333038202c353131207b,
0x2c7d20373335202c363038202c353131207b,
0x2c7d20313533202c373038202c353131207b,
0x2c7d2037383737202c353737202c363131207b,
0x2c7d2031333837202c363737202c363131207b,
0x2c7d20373533202c303837202c363131207b,
0x2c7d2039383737202c333038202c363131207b,
0x2c7d20393335202c363038202c363131207b,
0x2c7d20353533202c373038202c363131207b,
0x2c7d2033393737202c333138202c363131207b,
0x2c7d2031393737202c373138202c363131207b,
0x2c7d20393432202c383637202c373131207b,
0x2c7d20303532202c393637202c373131207b,
0x2c7d20313532202c303737202c373131207b,
0x2c7d20313633202c313737202c373131207b,
0x2c7d20333633202c323737202c373131207b,
0x2c7d20353633202c343737202c373131207b,
0x2c7d20323532202c363737202c373131207b,
0x2c7d2031313937202c373737202c373131207b,
0x2c7d20373633202c383737202c373131207b,
0x2c7d20393633202c393737202c373131207b,
0x2c7d20383634202c303837202c373131207b,
0x2c7d20333335202c333837202c373131207b,
0x2c7d20353335202c353837202c373131207b,
0x2c7d20323334202c353937202c373131207b,
0x2c7d2039303937202c333038202c373131207b,
0x2c7d2035393737202c343038202c373131207b,
0x2c7d20313733202c383038202c373131207b,
0x2c7d2039393737202c333138202c373131207b,
0x2c7d2037393737202c363138202c373131207b,
0x2c7d2035303837202c313737202c383131207b,
0x2c7d2037303837202c333038202c383131207b,
0x2c7d2039303837202c383637202c393131207b,
0x2c7d2031313837202c393637202c393131207b,
0x2c7d20333733202c303737202c393131207b,
0x2c7d2035313837202c353737202c393131207b,
0x2c7d2033313837202c363737202c393131207b,
0x2c7d2032333837202c383737202c393131207b,
0x2c7d2037313837202c333038202c393131207b,
0x2c7d2039313837202c353737202c303231207b,
0x2c7d2031323837202c363737202c303231207b,
0x2c7d2033323937202c383637202c313231207b,
0x2c7d20333532202c393637202c313231207b,
0x2c7d20353733202c303737202c313231207b,
0x2c7d2039323937202c313737202c313231207b,
0x2c7d20333635202c323737202c313231207b,
0x2c7d2033323837202c353737202c313231207b,
0x2c7d20353532202c363737202c313231207b,
0x2c7d2037323937202c373737202c313231207b,
0x2c7d2033333837202c383737202c313231207b,
0x2c7d2035323937202c333038202c313231207b,
0x2c7d20383733202c393637202c323231207b,
0x2c7d2035323837202c303737202c323231207b,
0x2c7d20303833202c353737202c323231207b,
0x2c7d20323833202c303837202c323231207b,
0x2c7d2037323837202c333038202c323231207b,
0x2c7d2039323837202c373138202c323231207b,
0x2c7d2033373138202c383637202c383631207b,
0x2c7d20313039202c393637202c383631207b,
0x2c7d2039323138202c343338202c383631207b,
0x2c7d2036343837202c383637202c343931207b,
0x2c7d2034343837202c393637202c343931207b,
0x2c7d2030353837202c313737202c343931207b,
0x2c7d2038343837202c373737202c343931207b,
0x2c7d20383734202c323737202c363931207b,
0x2c7d20363035202c393637202c373931207b,
0x2c7d20383035202c393637202c383931207b,
0x2c7d20323834202c323737202c383931207b,
0x2c7d2038383637202c393637202c393931207b,
0x2c7d2032373837202c383637202c323032207b,
0x2c7d2030373837202c393637202c323032207b,
0x2c7d2036373837202c313737202c323032207b,
0x2c7d2034373837202c373737202c323032207b,
0x2c7d2036323737202c393637202c373032207b,
0x2c7d2030393837202c383637202c323132207b,
0x2c7d2038383837202c393637202c323132207b,
0x2c7d2034393837202c313737202c323132207b,
0x2c7d2032393837202c373737202c323132207b,
0x2c7d2036353737202c393637202c333132207b,
0x2c7d20363535202c323737202c333132207b,
0x2c7d2038353737202c363737202c333132207b,
0x2c7d20343535202c323737202c343132207b,
0x2c7d20303135202c393637202c363132207b,
0x2c7d20353734202c383637202c303232207b,
0x2c7d20313734202c393637202c303232207b,
0x2c7d20393634202c323737202c303232207b,
0x2c7d20333734202c303837202c303232207b,
0x2c7d2037343837202c383637202c363232207b,
0x2c7d2035343837202c393637202c363232207b,
0x2c7d2031353837202c313737202c363232207b,
0x2c7d2039343837202c373737202c363232207b,
0x2c7d20393734202c323737202c383232207b,
0x2c7d20373035202c393637202c393232207b,
0x2c7d20393035202c393637202c303332207b,
0x2c7d20333834202c323737202c303332207b,
0x2c7d2039383637202c393637202c313332207b,
0x2c7d2033373837202c383637202c343332207b,
0x2c7d2031373837202c393637202c343332207b,
0x2c7d2037373837202c313737202c343332207b,
0x2c7d2035373837202c373737202c343332207b,
0x2c7d2037323737202c393637202c393332207b,
0x2c7d2031393837202c383637202c343432207b,
0x2c7d2039383837202c393637202c343432207b,
0x2c7d2035393837202c313737202c343432207b,
0x2c7d2033393837202c373737202c343432207b,
0x2c7d2037353737202c393637202c353432207b,
0x2c7d20373535202c323737202c353432207b,
0x2c7d2039353737202c363737202c353432207b,
0x2c7d20353535202c323737202c363432207b,
0x2c7d20313135202c393637202c383432207b,
0x2c7d20363734202c383637202c323532207b,
0x2c7d20323734202c393637202c323532207b,
0x2c7d20303734202c323737202c323532207b,
0x2c7d20343734202c303837202c323532207b,
0x2c7d2036353837202c383637202c383532207b,
0x2c7d2034353837202c393637202c383532207b,
0x2c7d2030363837202c313737202c383532207b,
0x2c7d2038353837202c373737202c383532207b,
0x2c7d2037353837202c383637202c393532207b,
0x2c7d2035353837202c393637202c393532207b,
0x2c7d2031363837202c313737202c393532207b,
0x2c7d2039353837202c373737202c393532207b,
0x2c7d2030303737202c383637202c343732207b,
0x2c7d2032303737202c393637202c343732207b,
0x2c7d2031303737202c383637202c353732207b,
0x2c7d2033303737202c393637202c353732207b,
0x2c7d2030363737202c383637202c323333207b,
0x2c7d2032363737202c393637202c323333207b,
0x2c7d2031363737202c383637202c333333207b,
0x2c7d2033363737202c393637202c333333207b,
0x2c7d2030383737202c353737202c363433207b,
0x2c7d2031383737202c353737202c373433207b,
0x2c7d2032383737202c353737202c323533207b,
0x2c7d2033383737202c353737202c333533207b,
0x2c7d2030303837202c393637202c303633207b,
0x2c7d2031303837202c393637202c313633207b,
0x2c7d2032303837202c363737202c323633207b,
0x2c7d2033303837202c363737202c333633207b,
0x2c7d2035333837202c353737202c333833207b,
0x2c7d2030303937202c383637202c363134207b,
0x2c7d2038393837202c393637202c363134207b,
0x2c7d2034303937202c313737202c363134207b,
0x2c7d2032303937202c373737202c363134207b,
0x2c7d2036303937202c333038202c363134207b,
0x2c7d2031303937202c383637202c373134207b,
0x2c7d2039393837202c393637202c373134207b,
0x2c7d2035303937202c313737202c373134207b,
0x2c7d2033303937202c373737202c373134207b,
0x2c7d2037303937202c333038202c373134207b,
0x2c7d2034313937202c383637202c313334207b,
0x2c7d2032313937202c393637202c313334207b,
0x2c7d2038313937202c313737202c313334207b,
0x2c7d2036313937202c373737202c313334207b,
0x2c7d2030323937202c333038202c313334207b,
0x2c7d2035313937202c383637202c323334207b,
0x2c7d2033313937202c393637202c323334207b,
0x2c7d2039313937202c313737202c323334207b,
0x2c7d2037313937202c373737202c323334207b,
0x2c7d2031323937202c333038202c323334207b,
0x2c7d20343934202c303837202c393334207b,
0x2c7d20323934202c323737202c303934207b,
0x2c7d20333934202c323737202c313934207b,
0x2c7d20303834202c323737202c303535207b,
0x2c7d20313834202c323737202c313535207b,
0x2c7d2038303737202c343737202c323535207b,
0x2c7d2039303737202c343737202c333535207b,
0x2c7d20303635202c323737202c383535207b,
0x2c7d20313635202c323737202c393535207b,
0x2c7d20353934202c303837202c383536207b,
0x2c7d2032323138202c383637202c333139207b,
0x2c7d20323039202c393637202c333139207b,
0x2c7d2031323138202c323737202c333139207b,
0x2c7d2030323138202c343737202c333139207b,
0x2c7d2034343937202c373837202c333139207b,
0x2c7d2035343937202c383837202c333139207b,
0x2c7d2034323138202c373338202c333139207b,
0x2c7d2036333138202c383637202c373139207b,
0x2c7d20343039202c393637202c373139207b,
0x2c7d2030363937202c373837202c373139207b,
0x2c7d2031363937202c383837202c373139207b,
0x2c7d2038333138202c383637202c393139207b,
0x2c7d20353039202c393637202c393139207b,
0x2c7d2036373937202c373837202c393139207b,
0x2c7d2037373937202c383837202c393139207b,
0x2c7d2030343138202c373338202c393139207b,
0x2c7d2034353138202c383637202c313239207b,
0x2c7d20363039202c393637202c313239207b,
0x2c7d2033353138202c323737202c313239207b,
0x2c7d2032353138202c343737202c313239207b,
0x2c7d20383339202c363737202c313239207b,
0x2c7d2032393937202c373837202c313239207b,
0x2c7d2033393937202c383837202c313239207b]

/-- src/u5e/props/canonical_composition_mapping_data.hpp lines 513-768. -/
def rawCompHdr2 : List Nat := [
0x2c7d2034383138202c383637202c373239207b,
0x2c7d20383039202c393637202c373239207b,
0x2c7d2038303038202c373837202c373239207b,
0x2c7d2039303038202c383837202c373239207b,
0x2c7d2032373138202c383837202c393239207b,
0x2c7d2030373138202c383637202c333339207b,
0x2c7d20303139202c393637202c333339207b,
0x2c7d2039363138202c323737202c333339207b,
0x2c7d2038363138202c343737202c333339207b,
0x2c7d20393339202c363737202c333339207b,
0x2c7d2035323038202c383837202c333339207b,
0x2c7d2036383138202c383637202c373339207b,
0x2c7d20313139202c393637202c373339207b,
0x2c7d2030343038202c373837202c373339207b,
0x2c7d2031343038202c383837202c373339207b,
0x2c7d2038383138202c373338202c373339207b,
0x2c7d2036313138202c373338202c303439207b,
0x2c7d2032333138202c373338202c323439207b,
0x2c7d2038343038202c383637202c353439207b,
0x2c7d20303439202c393637202c353439207b,
0x2c7d2033313138202c323737202c353439207b,
0x2c7d2032313138202c343737202c353439207b,
0x2c7d2036333937202c373837202c353439207b,
0x2c7d2037333937202c383837202c353439207b,
0x2c7d2038313138202c343338202c353439207b,
0x2c7d2035313138202c373338202c353439207b,
0x2c7d2030353038202c383637202c393439207b,
0x2c7d20313439202c393637202c393439207b,
0x2c7d2032353937202c373837202c393439207b,
0x2c7d2033353937202c383837202c393439207b,
0x2c7d2032353038202c383637202c313539207b,
0x2c7d20323439202c393637202c313539207b,
0x2c7d2038363937202c373837202c313539207b,
0x2c7d2039363937202c383837202c313539207b,
0x2c7d2034333138202c343338202c313539207b,
0x2c7d2031333138202c373338202c313539207b,
0x2c7d2034353038202c383637202c333539207b,
0x2c7d20333439202c393637202c333539207b,
0x2c7d2035343138202c323737202c333539207b,
0x2c7d2034343138202c343737202c333539207b,
0x2c7d20303739202c363737202c333539207b,
0x2c7d2034383937202c373837202c333539207b,
0x2c7d2035383937202c383837202c333539207b,
0x2c7d2030353138202c343338202c333539207b,
0x2c7d2036353038202c383637202c393539207b,
0x2c7d20323739202c393637202c393539207b,
0x2c7d2030303038202c373837202c393539207b,
0x2c7d2031303038202c383837202c393539207b,
0x2c7d2034363138202c373837202c313639207b,
0x2c7d2035363138202c383837202c313639207b,
0x2c7d2038353038202c383637202c353639207b,
0x2c7d20333739202c393637202c353639207b,
0x2c7d2031363138202c323737202c353639207b,
0x2c7d2030363138202c343737202c353639207b,
0x2c7d20313739202c363737202c353639207b,
0x2c7d2036313038202c373837202c353639207b,
0x2c7d2037313038202c383837202c353639207b,
0x2c7d2036363138202c343338202c353639207b,
0x2c7d2030363038202c383637202c393639207b,
0x2c7d20343739202c393637202c393639207b,
0x2c7d2032333038202c373837202c393639207b,
0x2c7d2033333038202c383837202c393639207b,
0x2c7d2032383138202c343338202c393639207b,
0x2c7d2039373138202c373338202c393639207b,
0x2c7d2036343138202c383637202c303739207b,
0x2c7d20323139202c393637202c303739207b,
0x2c7d2031353138202c343338202c303739207b,
0x2c7d2032363138202c383637202c313739207b,
0x2c7d20343439202c393637202c313739207b,
0x2c7d2037363138202c343338202c313739207b,
0x2c7d2030383138202c373338202c343739207b,
0x2c7d20393739202c393637202c383739207b,
0x2c7d20303839202c363737202c383739207b,
0x2c7d2031333031202c363737202c30333031207b,
0x2c7d2032333231202c343737202c30343031207b,
0x2c7d2034333231202c363737202c30343031207b,
0x2c7d2037323031202c393637202c33343031207b,
0x2c7d2034323031202c383637202c35343031207b,
0x2c7d2038333231202c343737202c35343031207b,
0x2c7d2035323031202c363737202c35343031207b,
0x2c7d2037313231202c343737202c36343031207b,
0x2c7d2034343231202c363737202c36343031207b,
0x2c7d2036343231202c363737202c37343031207b,
0x2c7d2037333031202c383637202c38343031207b,
0x2c7d2030353231202c323737202c38343031207b,
0x2c7d2039343031202c343737202c38343031207b,
0x2c7d2032353231202c363737202c38343031207b,
0x2c7d2036333031202c393637202c30353031207b,
0x2c7d2034353231202c363737202c34353031207b,
0x2c7d2032363231202c323737202c39353031207b,
0x2c7d2038333031202c343737202c39353031207b,
0x2c7d2034363231202c363737202c39353031207b,
0x2c7d2036363231202c393737202c39353031207b,
0x2c7d2038363231202c363737202c33363031207b,
0x2c7d2032373231202c363737202c37363031207b,
0x2c7d2030363231202c363737202c39363031207b,
0x2c7d2033333231202c343737202c32373031207b,
0x2c7d2035333231202c363737202c32373031207b,
0x2c7d2037303131202c393637202c35373031207b,
0x2c7d2034303131202c383637202c37373031207b,
0x2c7d2039333231202c343737202c37373031207b,
0x2c7d2035303131202c363737202c37373031207b,
0x2c7d2038313231202c343737202c38373031207b,
0x2c7d2035343231202c363737202c38373031207b,
0x2c7d2037343231202c363737202c39373031207b,
0x2c7d2037313131202c383637202c30383031207b,
0x2c7d2031353231202c323737202c30383031207b,
0x2c7d2031383031202c343737202c30383031207b,
0x2c7d2033353231202c363737202c30383031207b,
0x2c7d2036313131202c393637202c32383031207b,
0x2c7d2035353231202c363737202c36383031207b,
0x2c7d2033363231202c323737202c31393031207b,
0x2c7d2038313131202c343737202c31393031207b,
0x2c7d2035363231202c363737202c31393031207b,
0x2c7d2037363231202c393737202c31393031207b,
0x2c7d2039363231202c363737202c35393031207b,
0x2c7d2033373231202c363737202c39393031207b,
0x2c7d2031363231202c363737202c31303131207b,
0x2c7d2031313131202c363737202c30313131207b,
0x2c7d2032343131202c333837202c30343131207b,
0x2c7d2033343131202c333837202c31343131207b,
0x2c7d2032343231202c363737202c30343231207b,
0x2c7d2033343231202c363737202c31343231207b,
0x2c7d2038353231202c363737202c36353231207b,
0x2c7d2039353231202c363737202c37353231207b,
0x2c7d2030373531202c39313631202c35373531207b,
0x2c7d2031373531202c30323631202c35373531207b,
0x2c7d2033373531202c31323631202c35373531207b,
0x2c7d2032373531202c30323631202c38303631207b,
0x2c7d2034373531202c30323631202c30313631207b,
0x2c7d2030333731202c30323631202c39323731207b,
0x2c7d2037343731202c30323631202c36343731207b,
0x2c7d2038323731202c30323631202c39343731207b,
0x2c7d2035343332202c34363332202c34343332207b,
0x2c7d2033353332202c34363332202c32353332207b,
0x2c7d2036353332202c34363332202c35353332207b,
0x2c7d2037303532202c34393432202c33303532207b,
0x2c7d2038303532202c39313532202c33303532207b,
0x2c7d2031393832202c38373832202c37383832207b,
0x2c7d2038383832202c32303932202c37383832207b,
0x2c7d2032393832202c33303932202c37383832207b,
0x2c7d2034363932202c31333033202c32363932207b,
0x2c7d2038313033202c36303033202c34313033207b,
0x2c7d2030323033202c31333033202c34313033207b,
0x2c7d2039313033202c36303033202c35313033207b,
0x2c7d2034343133202c38353133202c32343133207b,
0x2c7d2034363233202c35383233202c33363233207b,
0x2c7d2034373233202c36363233202c30373233207b,
0x2c7d2031373233202c35383233202c30373233207b,
0x2c7d2032373233202c36383233202c30373233207b,
0x2c7d2035373233202c35383233202c34373233207b,
0x2c7d2032303433202c30393333202c38393333207b,
0x2c7d2034303433202c35313433202c38393333207b,
0x2c7d2033303433202c30393333202c39393333207b,
0x2c7d2036343533202c30333533202c35343533207b,
0x2c7d2038343533202c35333533202c35343533207b,
0x2c7d2030353533202c31353533202c35343533207b,
0x2c7d2039343533202c30333533202c38343533207b,
0x2c7d2034333134202c32343134202c33333134207b,
0x2c7d2038313936202c35363936202c37313936207b,
0x2c7d2030323936202c35363936202c39313936207b,
0x2c7d2032323936202c35363936202c31323936207b,
0x2c7d2034323936202c35363936202c33323936207b,
0x2c7d2036323936202c35363936202c35323936207b,
0x2c7d2030333936202c35363936202c39323936207b,
0x2c7d2031373936202c35363936202c30373936207b,
0x2c7d2033373936202c35363936202c32373936207b,
0x2c7d2036373936202c35363936202c34373936207b,
0x2c7d2037373936202c35363936202c35373936207b,
0x2c7d2039373936202c35363936202c38373936207b,
0x2c7d2036333737202c323737202c34333737207b,
0x2c7d2037333737202c323737202c35333737207b,
0x2c7d2032373737202c323737202c30373737207b,
0x2c7d2033373737202c323737202c31373737207b,
0x2c7d2034383737202c353737202c38373737207b,
0x2c7d2035383737202c353737202c39373737207b,
0x2c7d2032353837202c303737202c30343837207b,
0x2c7d2032363837202c343737202c30343837207b,
0x2c7d2033353837202c303737202c31343837207b,
0x2c7d2033363837202c343737202c31343837207b,
0x2c7d2038373837202c303737202c34363837207b,
0x2c7d2039373837202c303737202c35363837207b,
0x2c7d2036393837202c303737202c34383837207b,
0x2c7d2037393837202c303737202c35383837207b,
0x2c7d2038333937202c383637202c36333937207b,
0x2c7d2030343937202c393637202c36333937207b,
0x2c7d2032343937202c343338202c36333937207b,
0x2c7d2034363038202c373338202c36333937207b,
0x2c7d2039333937202c383637202c37333937207b,
0x2c7d2031343937202c393637202c37333937207b,
0x2c7d2033343937202c343338202c37333937207b,
0x2c7d2035363038202c373338202c37333937207b,
0x2c7d2036363038202c373338202c38333937207b,
0x2c7d2037363038202c373338202c39333937207b,
0x2c7d2038363038202c373338202c30343937207b,
0x2c7d2039363038202c373338202c31343937207b,
0x2c7d2030373038202c373338202c32343937207b,
0x2c7d2031373038202c373338202c33343937207b,
0x2c7d2036343937202c383637202c34343937207b,
0x2c7d2038343937202c393637202c34343937207b,
0x2c7d2030353937202c343338202c34343937207b,
0x2c7d2032373038202c373338202c34343937207b,
0x2c7d2037343937202c383637202c35343937207b,
0x2c7d2039343937202c393637202c35343937207b,
0x2c7d2031353937202c343338202c35343937207b,
0x2c7d2033373038202c373338202c35343937207b,
0x2c7d2034373038202c373338202c36343937207b,
0x2c7d2035373038202c373338202c37343937207b,
0x2c7d2036373038202c373338202c38343937207b,
0x2c7d2037373038202c373338202c39343937207b,
0x2c7d2038373038202c373338202c30353937207b,
0x2c7d2039373038202c373338202c31353937207b,
0x2c7d2034353937202c383637202c32353937207b,
0x2c7d2036353937202c393637202c32353937207b,
0x2c7d2035353937202c383637202c33353937207b,
0x2c7d2037353937202c393637202c33353937207b,
0x2c7d2032363937202c383637202c30363937207b,
0x2c7d2034363937202c393637202c30363937207b,
0x2c7d2033363937202c383637202c31363937207b,
0x2c7d2035363937202c393637202c31363937207b,
0x2c7d2030373937202c383637202c38363937207b,
0x2c7d2032373937202c393637202c38363937207b,
0x2c7d2034373937202c343338202c38363937207b,
0x2c7d2030383038202c373338202c38363937207b,
0x2c7d2031373937202c383637202c39363937207b,
0x2c7d2033373937202c393637202c39363937207b,
0x2c7d2035373937202c343338202c39363937207b,
0x2c7d2031383038202c373338202c39363937207b,
0x2c7d2032383038202c373338202c30373937207b,
0x2c7d2033383038202c373338202c31373937207b,
0x2c7d2034383038202c373338202c32373937207b,
0x2c7d2035383038202c373338202c33373937207b,
0x2c7d2036383038202c373338202c34373937207b,
0x2c7d2037383038202c373338202c35373937207b,
0x2c7d2038373937202c383637202c36373937207b,
0x2c7d2030383937202c393637202c36373937207b,
0x2c7d2032383937202c343338202c36373937207b,
0x2c7d2038383038202c373338202c36373937207b,
0x2c7d2039373937202c383637202c37373937207b,
0x2c7d2031383937202c393637202c37373937207b,
0x2c7d2033383937202c343338202c37373937207b,
0x2c7d2039383038202c373338202c37373937207b,
0x2c7d2030393038202c373338202c38373937207b,
0x2c7d2031393038202c373338202c39373937207b,
0x2c7d2032393038202c373338202c30383937207b,
0x2c7d2033393038202c373338202c31383937207b,
0x2c7d2034393038202c373338202c32383937207b,
0x2c7d2035393038202c373338202c33383937207b,
0x2c7d2036383937202c383637202c34383937207b,
0x2c7d2038383937202c393637202c34383937207b,
0x2c7d2030393937202c343338202c34383937207b,
0x2c7d2037383937202c383637202c35383937207b,
0x2c7d2039383937202c393637202c35383937207b,
0x2c7d2031393937202c343338202c35383937207b,
0x2c7d2034393937202c383637202c32393937207b,
0x2c7d2036393937202c393637202c32393937207b]

/-- src/u5e/props/canonical_composition_mapping_data.hpp lines 769-940. -/
def rawCompHdr3 : List Nat := [
0x2c7d2038393937202c343338202c32393937207b,
0x2c7d2035393937202c383637202c33393937207b,
0x2c7d2037393937202c393637202c33393937207b,
0x2c7d2039393937202c343338202c33393937207b,
0x2c7d2032303038202c383637202c30303038207b,
0x2c7d2034303038202c393637202c30303038207b,
0x2c7d2033303038202c383637202c31303038207b,
0x2c7d2035303038202c393637202c31303038207b,
0x2c7d2030313038202c383637202c38303038207b,
0x2c7d2032313038202c393637202c38303038207b,
0x2c7d2031313038202c383637202c39303038207b,
0x2c7d2033313038202c393637202c39303038207b,
0x2c7d2038313038202c383637202c36313038207b,
0x2c7d2030323038202c393637202c36313038207b,
0x2c7d2032323038202c343338202c36313038207b,
0x2c7d2039313038202c383637202c37313038207b,
0x2c7d2031323038202c393637202c37313038207b,
0x2c7d2033323038202c343338202c37313038207b,
0x2c7d2037323038202c383637202c35323038207b,
0x2c7d2039323038202c393637202c35323038207b,
0x2c7d2031333038202c343338202c35323038207b,
0x2c7d2034333038202c383637202c32333038207b,
0x2c7d2036333038202c393637202c32333038207b,
0x2c7d2038333038202c343338202c32333038207b,
0x2c7d2036393038202c373338202c32333038207b,
0x2c7d2035333038202c383637202c33333038207b,
0x2c7d2037333038202c393637202c33333038207b,
0x2c7d2039333038202c343338202c33333038207b,
0x2c7d2037393038202c373338202c33333038207b,
0x2c7d2038393038202c373338202c34333038207b,
0x2c7d2039393038202c373338202c35333038207b,
0x2c7d2030303138202c373338202c36333038207b,
0x2c7d2031303138202c373338202c37333038207b,
0x2c7d2032303138202c373338202c38333038207b,
0x2c7d2033303138202c373338202c39333038207b,
0x2c7d2032343038202c383637202c30343038207b,
0x2c7d2034343038202c393637202c30343038207b,
0x2c7d2036343038202c343338202c30343038207b,
0x2c7d2034303138202c373338202c30343038207b,
0x2c7d2033343038202c383637202c31343038207b,
0x2c7d2035343038202c393637202c31343038207b,
0x2c7d2037343038202c343338202c31343038207b,
0x2c7d2035303138202c373338202c31343038207b,
0x2c7d2036303138202c373338202c32343038207b,
0x2c7d2037303138202c373338202c33343038207b,
0x2c7d2038303138202c373338202c34343038207b,
0x2c7d2039303138202c373338202c35343038207b,
0x2c7d2030313138202c373338202c36343038207b,
0x2c7d2031313138202c373338202c37343038207b,
0x2c7d2034313138202c373338202c38343038207b,
0x2c7d2030333138202c373338202c32353038207b,
0x2c7d2038373138202c373338202c30363038207b,
0x2c7d2039313138202c373338202c38313138207b,
0x2c7d2031343138202c383637202c37323138207b,
0x2c7d2032343138202c393637202c37323138207b,
0x2c7d2033343138202c343338202c37323138207b,
0x2c7d2035333138202c373338202c34333138207b,
0x2c7d2033383138202c373338202c32383138207b,
0x2c7d2037353138202c383637202c30393138207b,
0x2c7d2038353138202c393637202c30393138207b,
0x2c7d2039353138202c343338202c30393138207b,
0x2c7d2032303638202c343238202c32393538207b,
0x2c7d2033303638202c343238202c34393538207b,
0x2c7d2032323638202c343238202c36393538207b,
0x2c7d2033353638202c343238202c36353638207b,
0x2c7d2035353638202c343238202c38353638207b,
0x2c7d2034353638202c343238202c30363638207b,
0x2c7d2038303738202c343238202c37303738207b,
0x2c7d2033313738202c343238202c32313738207b,
0x2c7d2036313738202c343238202c35313738207b,
0x2c7d2030343738202c343238202c39333738207b,
0x2c7d2032343738202c343238202c31343738207b,
0x2c7d2039363738202c343238202c34363738207b,
0x2c7d2032373738202c343238202c31373738207b,
0x2c7d2035373738202c343238202c33373738207b,
0x2c7d2037373738202c343238202c36373738207b,
0x2c7d2033313838202c343238202c31383738207b,
0x2c7d2032303838202c343238202c31303838207b,
0x2c7d2036313838202c343238202c34303838207b,
0x2c7d2037313838202c343238202c35303838207b,
0x2c7d2030323838202c343238202c38313838207b,
0x2c7d2031323838202c343238202c39313838207b,
0x2c7d2034323838202c343238202c32323838207b,
0x2c7d2035323838202c343238202c33323838207b,
0x2c7d2032333838202c343238202c36323838207b,
0x2c7d2033333838202c343238202c37323838207b,
0x2c7d2038323938202c343238202c38323838207b,
0x2c7d2039323938202c343238202c39323838207b,
0x2c7d2036333838202c343238202c34333838207b,
0x2c7d2037333838202c343238202c35333838207b,
0x2c7d2030343838202c343238202c38333838207b,
0x2c7d2031343838202c343238202c39333838207b,
0x2c7d2030333938202c343238202c39343838207b,
0x2c7d2031333938202c343238202c30353838207b,
0x2c7d2036373838202c343238202c36363838207b,
0x2c7d2037373838202c343238202c32373838207b,
0x2c7d2038373838202c343238202c33373838207b,
0x2c7d2039373838202c343238202c35373838207b,
0x2c7d2038333938202c343238202c32383838207b,
0x2c7d2039333938202c343238202c33383838207b,
0x2c7d2030343938202c343238202c34383838207b,
0x2c7d2031343938202c343238202c35383838207b,
0x2c7d203633343231202c3134343231202c3835333231207b,
0x2c7d203436333231202c3134343231202c3336333231207b,
0x2c7d203636333231202c3134343231202c3536333231207b,
0x2c7d203836333231202c3134343231202c3736333231207b,
0x2c7d203037333231202c3134343231202c3936333231207b,
0x2c7d203237333231202c3134343231202c3137333231207b,
0x2c7d203437333231202c3134343231202c3337333231207b,
0x2c7d203637333231202c3134343231202c3537333231207b,
0x2c7d203837333231202c3134343231202c3737333231207b,
0x2c7d203038333231202c3134343231202c3937333231207b,
0x2c7d203238333231202c3134343231202c3138333231207b,
0x2c7d203438333231202c3134343231202c3338333231207b,
0x2c7d203638333231202c3134343231202c3538333231207b,
0x2c7d203938333231202c3134343231202c3838333231207b,
0x2c7d203139333231202c3134343231202c3039333231207b,
0x2c7d203339333231202c3134343231202c3239333231207b,
0x2c7d203030343231202c3134343231202c3939333231207b,
0x2c7d203130343231202c3234343231202c3939333231207b,
0x2c7d203330343231202c3134343231202c3230343231207b,
0x2c7d203430343231202c3234343231202c3230343231207b,
0x2c7d203630343231202c3134343231202c3530343231207b,
0x2c7d203730343231202c3234343231202c3530343231207b,
0x2c7d203930343231202c3134343231202c3830343231207b,
0x2c7d203031343231202c3234343231202c3830343231207b,
0x2c7d203231343231202c3134343231202c3131343231207b,
0x2c7d203331343231202c3234343231202c3131343231207b,
0x2c7d203634343231202c3134343231202c3534343231207b,
0x2c7d203233353231202c3134343231202c3435343231207b,
0x2c7d203036343231202c3134343231202c3935343231207b,
0x2c7d203236343231202c3134343231202c3136343231207b,
0x2c7d203436343231202c3134343231202c3336343231207b,
0x2c7d203636343231202c3134343231202c3536343231207b,
0x2c7d203836343231202c3134343231202c3736343231207b,
0x2c7d203037343231202c3134343231202c3936343231207b,
0x2c7d203237343231202c3134343231202c3137343231207b,
0x2c7d203437343231202c3134343231202c3337343231207b,
0x2c7d203637343231202c3134343231202c3537343231207b,
0x2c7d203837343231202c3134343231202c3737343231207b,
0x2c7d203038343231202c3134343231202c3937343231207b,
0x2c7d203238343231202c3134343231202c3138343231207b,
0x2c7d203538343231202c3134343231202c3438343231207b,
0x2c7d203738343231202c3134343231202c3638343231207b,
0x2c7d203938343231202c3134343231202c3838343231207b,
0x2c7d203639343231202c3134343231202c3539343231207b,
0x2c7d203739343231202c3234343231202c3539343231207b,
0x2c7d203939343231202c3134343231202c3839343231207b,
0x2c7d203030353231202c3234343231202c3839343231207b,
0x2c7d203230353231202c3134343231202c3130353231207b,
0x2c7d203330353231202c3234343231202c3130353231207b,
0x2c7d203530353231202c3134343231202c3430353231207b,
0x2c7d203630353231202c3234343231202c3430353231207b,
0x2c7d203830353231202c3134343231202c3730353231207b,
0x2c7d203930353231202c3234343231202c3730353231207b,
0x2c7d203533353231202c3134343231202c3732353231207b,
0x2c7d203633353231202c3134343231202c3832353231207b,
0x2c7d203733353231202c3134343231202c3932353231207b,
0x2c7d203833353231202c3134343231202c3033353231207b,
0x2c7d203234353231202c3134343231202c3134353231207b,
0x2c7d203638373936202c3831383936202c3538373936207b,
0x2c7d203838373936202c3831383936202c3738373936207b,
0x2c7d203330383936202c3831383936202c3739373936207b,
0x2c7d203433393936202c3732393936202c3733393936207b,
0x2c7d203533393936202c3732393936202c3833393936207b,
0x2c7d203537343037202c3236343037202c3137343037207b,
0x2c7d203637343037202c3738343037202c3137343037207b,
0x2c7d203434383037202c3233383037202c3134383037207b,
0x2c7d203334383037202c3234383037202c3134383037207b,
0x2c7d203634383037202c3534383037202c3134383037207b,
0x2c7d203839303137202c3738303137202c3639303137207b,
0x7d203939303137202c3738303137202c3739303137207b]

/-- The lines of src/u5e/props/canonical_composition_mapping_data.hpp (the last one without a newline). -/
@[irreducible] def compHeaderRaw : List Nat :=
  rawCompHdr0 ++ (rawCompHdr1 ++ (rawCompHdr2 ++ (rawCompHdr3)))

end U5e.Data
