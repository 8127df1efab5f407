set_option maxRecDepth 10000
/-! GENERATED by tools/gen_raw.py: the octets of src/u5e/props/UnicodeData.txt, one number per line (little-endian). -/
namespace U5e.Data

/-- src/u5e/props/UnicodeData.txt lines 23041-23296. -/
def rawUcd90 : List Nat := [
0x3b3b3b3b3b4e3b3b3b3b3b4c3b303b6f4c3b31393341204850594c474f52454948204e41494c4f54414e413b4242353431,
0x3b3b3b3b3b4e3b3b3b3b3b4c3b303b6f4c3b32393341204850594c474f52454948204e41494c4f54414e413b4342353431,
0x3b3b3b3b3b4e3b3b3b3b3b4c3b303b6f4c3b54484749452033393341204850594c474f52454948204e41494c4f54414e413b4442353431,
0x3b3b3b3b3b4e3b3b3b3b3b4c3b303b6f4c3b34393341204850594c474f52454948204e41494c4f54414e413b4542353431,
0x3b3b3b3b3b4e3b3b3b3b3b4c3b303b6f4c3b35393341204850594c474f52454948204e41494c4f54414e413b4642353431,
0x3b3b3b3b3b4e3b3b3b3b3b4c3b303b6f4c3b36393341204850594c474f52454948204e41494c4f54414e413b3043353431,
0x3b3b3b3b3b4e3b3b3b3b3b4c3b303b6f4c3b37393341204850594c474f52454948204e41494c4f54414e413b3143353431,
0x3b3b3b3b3b4e3b3b3b3b3b4c3b303b6f4c3b38393341204850594c474f52454948204e41494c4f54414e413b3243353431,
0x3b3b3b3b3b4e3b3b3b3b3b4c3b303b6f4c3b39393341204850594c474f52454948204e41494c4f54414e413b3343353431,
0x3b3b3b3b3b4e3b3b3b3b3b4c3b303b6f4c3b30303441204850594c474f52454948204e41494c4f54414e413b3443353431,
0x3b3b3b3b3b4e3b3b3b3b3b4c3b303b6f4c3b31303441204850594c474f52454948204e41494c4f54414e413b3543353431,
0x3b3b3b3b3b4e3b3b3b3b3b4c3b303b6f4c3b32303441204850594c474f52454948204e41494c4f54414e413b3643353431,
0x3b3b3b3b3b4e3b3b3b3b3b4c3b303b6f4c3b33303441204850594c474f52454948204e41494c4f54414e413b3743353431,
0x3b3b3b3b3b4e3b3b3b3b3b4c3b303b6f4c3b34303441204850594c474f52454948204e41494c4f54414e413b3843353431,
0x3b3b3b3b3b4e3b3b3b3b3b4c3b303b6f4c3b35303441204850594c474f52454948204e41494c4f54414e413b3943353431,
0x3b3b3b3b3b4e3b3b3b3b3b4c3b303b6f4c3b36303441204850594c474f52454948204e41494c4f54414e413b4143353431,
0x3b3b3b3b3b4e3b3b3b3b3b4c3b303b6f4c3b37303441204850594c474f52454948204e41494c4f54414e413b4243353431,
0x3b3b3b3b3b4e3b3b3b3b3b4c3b303b6f4c3b38303441204850594c474f52454948204e41494c4f54414e413b4343353431,
0x3b3b3b3b3b4e3b3b3b3b3b4c3b303b6f4c3b39303441204850594c474f52454948204e41494c4f54414e413b4443353431,
0x3b3b3b3b3b4e3b3b3b3b3b4c3b303b6f4c3b4b52414d204d4152474f474f4c204e494745422030313441204850594c474f52454948204e41494c4f54414e413b4543353431,
0x3b3b3b3b3b4e3b3b3b3b3b4c3b303b6f4c3b4b52414d204d4152474f474f4c20444e45204130313441204850594c474f52454948204e41494c4f54414e413b4643353431,
0x3b3b3b3b3b4e3b3b3b3b3b4c3b303b6f4c3b31313441204850594c474f52454948204e41494c4f54414e413b3044353431,
0x3b3b3b3b3b4e3b3b3b3b3b4c3b303b6f4c3b32313441204850594c474f52454948204e41494c4f54414e413b3144353431,
0x3b3b3b3b3b4e3b3b3b3b3b4c3b303b6f4c3b33313441204850594c474f52454948204e41494c4f54414e413b3244353431,
0x3b3b3b3b3b4e3b3b3b3b3b4c3b303b6f4c3b34313441204850594c474f52454948204e41494c4f54414e413b3344353431,
0x3b3b3b3b3b4e3b3b3b3b3b4c3b303b6f4c3b35313441204850594c474f52454948204e41494c4f54414e413b3444353431,
0x3b3b3b3b3b4e3b3b3b3b3b4c3b303b6f4c3b36313441204850594c474f52454948204e41494c4f54414e413b3544353431,
0x3b3b3b3b3b4e3b3b3b3b3b4c3b303b6f4c3b37313441204850594c474f52454948204e41494c4f54414e413b3644353431,
0x3b3b3b3b3b4e3b3b3b3b3b4c3b303b6f4c3b38313441204850594c474f52454948204e41494c4f54414e413b3744353431,
0x3b3b3b3b3b4e3b3b3b3b3b4c3b303b6f4c3b39313441204850594c474f52454948204e41494c4f54414e413b3844353431,
0x3b3b3b3b3b4e3b3b3b3b3b4c3b303b6f4c3b30323441204850594c474f52454948204e41494c4f54414e413b3944353431,
0x3b3b3b3b3b4e3b3b3b3b3b4c3b303b6f4c3b31323441204850594c474f52454948204e41494c4f54414e413b4144353431,
0x3b3b3b3b3b4e3b3b3b3b3b4c3b303b6f4c3b32323441204850594c474f52454948204e41494c4f54414e413b4244353431,
0x3b3b3b3b3b4e3b3b3b3b3b4c3b303b6f4c3b33323441204850594c474f52454948204e41494c4f54414e413b4344353431,
0x3b3b3b3b3b4e3b3b3b3b3b4c3b303b6f4c3b34323441204850594c474f52454948204e41494c4f54414e413b4444353431,
0x3b3b3b3b3b4e3b3b3b3b3b4c3b303b6f4c3b35323441204850594c474f52454948204e41494c4f54414e413b4544353431,
0x3b3b3b3b3b4e3b3b3b3b3b4c3b303b6f4c3b36323441204850594c474f52454948204e41494c4f54414e413b4644353431,
0x3b3b3b3b3b4e3b3b3b3b3b4c3b303b6f4c3b37323441204850594c474f52454948204e41494c4f54414e413b3045353431,
0x3b3b3b3b3b4e3b3b3b3b3b4c3b303b6f4c3b38323441204850594c474f52454948204e41494c4f54414e413b3145353431,
0x3b3b3b3b3b4e3b3b3b3b3b4c3b303b6f4c3b39323441204850594c474f52454948204e41494c4f54414e413b3245353431,
0x3b3b3b3b3b4e3b3b3b3b3b4c3b303b6f4c3b30333441204850594c474f52454948204e41494c4f54414e413b3345353431,
0x3b3b3b3b3b4e3b3b3b3b3b4c3b303b6f4c3b31333441204850594c474f52454948204e41494c4f54414e413b3445353431,
0x3b3b3b3b3b4e3b3b3b3b3b4c3b303b6f4c3b32333441204850594c474f52454948204e41494c4f54414e413b3545353431,
0x3b3b3b3b3b4e3b3b3b3b3b4c3b303b6f4c3b33333441204850594c474f52454948204e41494c4f54414e413b3645353431,
0x3b3b3b3b3b4e3b3b3b3b3b4c3b303b6f4c3b34333441204850594c474f52454948204e41494c4f54414e413b3745353431,
0x3b3b3b3b3b4e3b3b3b3b3b4c3b303b6f4c3b35333441204850594c474f52454948204e41494c4f54414e413b3845353431,
0x3b3b3b3b3b4e3b3b3b3b3b4c3b303b6f4c3b36333441204850594c474f52454948204e41494c4f54414e413b3945353431,
0x3b3b3b3b3b4e3b3b3b3b3b4c3b303b6f4c3b37333441204850594c474f52454948204e41494c4f54414e413b4145353431,
0x3b3b3b3b3b4e3b3b3b3b3b4c3b303b6f4c3b38333441204850594c474f52454948204e41494c4f54414e413b4245353431,
0x3b3b3b3b3b4e3b3b3b3b3b4c3b303b6f4c3b39333441204850594c474f52454948204e41494c4f54414e413b4345353431,
0x3b3b3b3b3b4e3b3b3b3b3b4c3b303b6f4c3b30343441204850594c474f52454948204e41494c4f54414e413b4445353431,
0x3b3b3b3b3b4e3b3b3b3b3b4c3b303b6f4c3b31343441204850594c474f52454948204e41494c4f54414e413b4545353431,
0x3b3b3b3b3b4e3b3b3b3b3b4c3b303b6f4c3b32343441204850594c474f52454948204e41494c4f54414e413b4645353431,
0x3b3b3b3b3b4e3b3b3b3b3b4c3b303b6f4c3b33343441204850594c474f52454948204e41494c4f54414e413b3046353431,
0x3b3b3b3b3b4e3b3b3b3b3b4c3b303b6f4c3b34343441204850594c474f52454948204e41494c4f54414e413b3146353431,
0x3b3b3b3b3b4e3b3b3b3b3b4c3b303b6f4c3b35343441204850594c474f52454948204e41494c4f54414e413b3246353431,
0x3b3b3b3b3b4e3b3b3b3b3b4c3b303b6f4c3b36343441204850594c474f52454948204e41494c4f54414e413b3346353431,
0x3b3b3b3b3b4e3b3b3b3b3b4c3b303b6f4c3b37343441204850594c474f52454948204e41494c4f54414e413b3446353431,
0x3b3b3b3b3b4e3b3b3b3b3b4c3b303b6f4c3b38343441204850594c474f52454948204e41494c4f54414e413b3546353431,
0x3b3b3b3b3b4e3b3b3b3b3b4c3b303b6f4c3b39343441204850594c474f52454948204e41494c4f54414e413b3646353431,
0x3b3b3b3b3b4e3b3b3b3b3b4c3b303b6f4c3b30353441204850594c474f52454948204e41494c4f54414e413b3746353431,
0x3b3b3b3b3b4e3b3b3b3b3b4c3b303b6f4c3b4130353441204850594c474f52454948204e41494c4f54414e413b3846353431,
0x3b3b3b3b3b4e3b3b3b3b3b4c3b303b6f4c3b31353441204850594c474f52454948204e41494c4f54414e413b3946353431,
0x3b3b3b3b3b4e3b3b3b3b3b4c3b303b6f4c3b32353441204850594c474f52454948204e41494c4f54414e413b4146353431,
0x3b3b3b3b3b4e3b3b3b3b3b4c3b303b6f4c3b33353441204850594c474f52454948204e41494c4f54414e413b4246353431,
0x3b3b3b3b3b4e3b3b3b3b3b4c3b303b6f4c3b34353441204850594c474f52454948204e41494c4f54414e413b4346353431,
0x3b3b3b3b3b4e3b3b3b3b3b4c3b303b6f4c3b35353441204850594c474f52454948204e41494c4f54414e413b4446353431,
0x3b3b3b3b3b4e3b3b3b3b3b4c3b303b6f4c3b36353441204850594c474f52454948204e41494c4f54414e413b4546353431,
0x3b3b3b3b3b4e3b3b3b3b3b4c3b303b6f4c3b37353441204850594c474f52454948204e41494c4f54414e413b4646353431,
0x3b3b3b3b3b4e3b3b3b3b3b4c3b303b6f4c3b4137353441204850594c474f52454948204e41494c4f54414e413b3030363431,
0x3b3b3b3b3b4e3b3b3b3b3b4c3b303b6f4c3b38353441204850594c474f52454948204e41494c4f54414e413b3130363431,
0x3b3b3b3b3b4e3b3b3b3b3b4c3b303b6f4c3b39353441204850594c474f52454948204e41494c4f54414e413b3230363431,
0x3b3b3b3b3b4e3b3b3b3b3b4c3b303b6f4c3b30363441204850594c474f52454948204e41494c4f54414e413b3330363431,
0x3b3b3b3b3b4e3b3b3b3b3b4c3b303b6f4c3b31363441204850594c474f52454948204e41494c4f54414e413b3430363431,
0x3b3b3b3b3b4e3b3b3b3b3b4c3b303b6f4c3b32363441204850594c474f52454948204e41494c4f54414e413b3530363431,
0x3b3b3b3b3b4e3b3b3b3b3b4c3b303b6f4c3b33363441204850594c474f52454948204e41494c4f54414e413b3630363431,
0x3b3b3b3b3b4e3b3b3b3b3b4c3b303b6f4c3b34363441204850594c474f52454948204e41494c4f54414e413b3730363431,
0x3b3b3b3b3b4e3b3b3b3b3b4c3b303b6f4c3b35363441204850594c474f52454948204e41494c4f54414e413b3830363431,
0x3b3b3b3b3b4e3b3b3b3b3b4c3b303b6f4c3b36363441204850594c474f52454948204e41494c4f54414e413b3930363431,
0x3b3b3b3b3b4e3b3b3b3b3b4c3b303b6f4c3b37363441204850594c474f52454948204e41494c4f54414e413b4130363431,
0x3b3b3b3b3b4e3b3b3b3b3b4c3b303b6f4c3b38363441204850594c474f52454948204e41494c4f54414e413b4230363431,
0x3b3b3b3b3b4e3b3b3b3b3b4c3b303b6f4c3b39363441204850594c474f52454948204e41494c4f54414e413b4330363431,
0x3b3b3b3b3b4e3b3b3b3b3b4c3b303b6f4c3b30373441204850594c474f52454948204e41494c4f54414e413b4430363431,
0x3b3b3b3b3b4e3b3b3b3b3b4c3b303b6f4c3b31373441204850594c474f52454948204e41494c4f54414e413b4530363431,
0x3b3b3b3b3b4e3b3b3b3b3b4c3b303b6f4c3b32373441204850594c474f52454948204e41494c4f54414e413b4630363431,
0x3b3b3b3b3b4e3b3b3b3b3b4c3b303b6f4c3b33373441204850594c474f52454948204e41494c4f54414e413b3031363431,
0x3b3b3b3b3b4e3b3b3b3b3b4c3b303b6f4c3b34373441204850594c474f52454948204e41494c4f54414e413b3131363431,
0x3b3b3b3b3b4e3b3b3b3b3b4c3b303b6f4c3b35373441204850594c474f52454948204e41494c4f54414e413b3231363431,
0x3b3b3b3b3b4e3b3b3b3b3b4c3b303b6f4c3b36373441204850594c474f52454948204e41494c4f54414e413b3331363431,
0x3b3b3b3b3b4e3b3b3b3b3b4c3b303b6f4c3b37373441204850594c474f52454948204e41494c4f54414e413b3431363431,
0x3b3b3b3b3b4e3b3b3b3b3b4c3b303b6f4c3b38373441204850594c474f52454948204e41494c4f54414e413b3531363431,
0x3b3b3b3b3b4e3b3b3b3b3b4c3b303b6f4c3b39373441204850594c474f52454948204e41494c4f54414e413b3631363431,
0x3b3b3b3b3b4e3b3b3b3b3b4c3b303b6f4c3b30383441204850594c474f52454948204e41494c4f54414e413b3731363431,
0x3b3b3b3b3b4e3b3b3b3b3b4c3b303b6f4c3b31383441204850594c474f52454948204e41494c4f54414e413b3831363431,
0x3b3b3b3b3b4e3b3b3b3b3b4c3b303b6f4c3b32383441204850594c474f52454948204e41494c4f54414e413b3931363431,
0x3b3b3b3b3b4e3b3b3b3b3b4c3b303b6f4c3b33383441204850594c474f52454948204e41494c4f54414e413b4131363431,
0x3b3b3b3b3b4e3b3b3b3b3b4c3b303b6f4c3b34383441204850594c474f52454948204e41494c4f54414e413b4231363431,
0x3b3b3b3b3b4e3b3b3b3b3b4c3b303b6f4c3b35383441204850594c474f52454948204e41494c4f54414e413b4331363431,
0x3b3b3b3b3b4e3b3b3b3b3b4c3b303b6f4c3b36383441204850594c474f52454948204e41494c4f54414e413b4431363431,
0x3b3b3b3b3b4e3b3b3b3b3b4c3b303b6f4c3b37383441204850594c474f52454948204e41494c4f54414e413b4531363431,
0x3b3b3b3b3b4e3b3b3b3b3b4c3b303b6f4c3b38383441204850594c474f52454948204e41494c4f54414e413b4631363431,
0x3b3b3b3b3b4e3b3b3b3b3b4c3b303b6f4c3b39383441204850594c474f52454948204e41494c4f54414e413b3032363431,
0x3b3b3b3b3b4e3b3b3b3b3b4c3b303b6f4c3b30393441204850594c474f52454948204e41494c4f54414e413b3132363431,
0x3b3b3b3b3b4e3b3b3b3b3b4c3b303b6f4c3b31393441204850594c474f52454948204e41494c4f54414e413b3232363431,
0x3b3b3b3b3b4e3b3b3b3b3b4c3b303b6f4c3b32393441204850594c474f52454948204e41494c4f54414e413b3332363431,
0x3b3b3b3b3b4e3b3b3b3b3b4c3b303b6f4c3b33393441204850594c474f52454948204e41494c4f54414e413b3432363431,
0x3b3b3b3b3b4e3b3b3b3b3b4c3b303b6f4c3b34393441204850594c474f52454948204e41494c4f54414e413b3532363431,
0x3b3b3b3b3b4e3b3b3b3b3b4c3b303b6f4c3b35393441204850594c474f52454948204e41494c4f54414e413b3632363431,
0x3b3b3b3b3b4e3b3b3b3b3b4c3b303b6f4c3b36393441204850594c474f52454948204e41494c4f54414e413b3732363431,
0x3b3b3b3b3b4e3b3b3b3b3b4c3b303b6f4c3b37393441204850594c474f52454948204e41494c4f54414e413b3832363431,
0x3b3b3b3b3b4e3b3b3b3b3b4c3b303b6f4c3b31303541204850594c474f52454948204e41494c4f54414e413b3932363431,
0x3b3b3b3b3b4e3b3b3b3b3b4c3b303b6f4c3b32303541204850594c474f52454948204e41494c4f54414e413b4132363431,
0x3b3b3b3b3b4e3b3b3b3b3b4c3b303b6f4c3b33303541204850594c474f52454948204e41494c4f54414e413b4232363431,
0x3b3b3b3b3b4e3b3b3b3b3b4c3b303b6f4c3b34303541204850594c474f52454948204e41494c4f54414e413b4332363431,
0x3b3b3b3b3b4e3b3b3b3b3b4c3b303b6f4c3b35303541204850594c474f52454948204e41494c4f54414e413b4432363431,
0x3b3b3b3b3b4e3b3b3b3b3b4c3b303b6f4c3b36303541204850594c474f52454948204e41494c4f54414e413b4532363431,
0x3b3b3b3b3b4e3b3b3b3b3b4c3b303b6f4c3b37303541204850594c474f52454948204e41494c4f54414e413b4632363431,
0x3b3b3b3b3b4e3b3b3b3b3b4c3b303b6f4c3b38303541204850594c474f52454948204e41494c4f54414e413b3033363431,
0x3b3b3b3b3b4e3b3b3b3b3b4c3b303b6f4c3b39303541204850594c474f52454948204e41494c4f54414e413b3133363431,
0x3b3b3b3b3b4e3b3b3b3b3b4c3b303b6f4c3b30313541204850594c474f52454948204e41494c4f54414e413b3233363431,
0x3b3b3b3b3b4e3b3b3b3b3b4c3b303b6f4c3b31313541204850594c474f52454948204e41494c4f54414e413b3333363431,
0x3b3b3b3b3b4e3b3b3b3b3b4c3b303b6f4c3b32313541204850594c474f52454948204e41494c4f54414e413b3433363431,
0x3b3b3b3b3b4e3b3b3b3b3b4c3b303b6f4c3b33313541204850594c474f52454948204e41494c4f54414e413b3533363431,
0x3b3b3b3b3b4e3b3b3b3b3b4c3b303b6f4c3b34313541204850594c474f52454948204e41494c4f54414e413b3633363431,
0x3b3b3b3b3b4e3b3b3b3b3b4c3b303b6f4c3b35313541204850594c474f52454948204e41494c4f54414e413b3733363431,
0x3b3b3b3b3b4e3b3b3b3b3b4c3b303b6f4c3b36313541204850594c474f52454948204e41494c4f54414e413b3833363431,
0x3b3b3b3b3b4e3b3b3b3b3b4c3b303b6f4c3b37313541204850594c474f52454948204e41494c4f54414e413b3933363431,
0x3b3b3b3b3b4e3b3b3b3b3b4c3b303b6f4c3b38313541204850594c474f52454948204e41494c4f54414e413b4133363431,
0x3b3b3b3b3b4e3b3b3b3b3b4c3b303b6f4c3b39313541204850594c474f52454948204e41494c4f54414e413b4233363431,
0x3b3b3b3b3b4e3b3b3b3b3b4c3b303b6f4c3b30323541204850594c474f52454948204e41494c4f54414e413b4333363431,
0x3b3b3b3b3b4e3b3b3b3b3b4c3b303b6f4c3b31323541204850594c474f52454948204e41494c4f54414e413b4433363431,
0x3b3b3b3b3b4e3b3b3b3b3b4c3b303b6f4c3b32323541204850594c474f52454948204e41494c4f54414e413b4533363431,
0x3b3b3b3b3b4e3b3b3b3b3b4c3b303b6f4c3b33323541204850594c474f52454948204e41494c4f54414e413b4633363431,
0x3b3b3b3b3b4e3b3b3b3b3b4c3b303b6f4c3b34323541204850594c474f52454948204e41494c4f54414e413b3034363431,
0x3b3b3b3b3b4e3b3b3b3b3b4c3b303b6f4c3b35323541204850594c474f52454948204e41494c4f54414e413b3134363431,
0x3b3b3b3b3b4e3b3b3b3b3b4c3b303b6f4c3b36323541204850594c474f52454948204e41494c4f54414e413b3234363431,
0x3b3b3b3b3b4e3b3b3b3b3b4c3b303b6f4c3b37323541204850594c474f52454948204e41494c4f54414e413b3334363431,
0x3b3b3b3b3b4e3b3b3b3b3b4c3b303b6f4c3b38323541204850594c474f52454948204e41494c4f54414e413b3434363431,
0x3b3b3b3b3b4e3b3b3b3b3b4c3b303b6f4c3b39323541204850594c474f52454948204e41494c4f54414e413b3534363431,
0x3b3b3b3b3b4e3b3b3b3b3b4c3b303b6f4c3b30333541204850594c474f52454948204e41494c4f54414e413b3634363431,
0x3b3b3b3b3b4e3b3b3b3b3b4c3b303b6f4c3b4e4f464d2045554b474e20412d45534148502052455454454c204d554d41423b3030383631,
0x3b3b3b3b3b4e3b3b3b3b3b4c3b303b6f4c3b4e4f4620454549424720412d45534148502052455454454c204d554d41423b3130383631,
0x3b3b3b3b3b4e3b3b3b3b3b4c3b303b6f4c3b45454942474d4541504950204e4f464d204e4f5020412d45534148502052455454454c204d554d41423b3230383631,
0x3b3b3b3b3b4e3b3b3b3b3b4c3b303b6f4c3b41424d4541504950204e4f464d204e4f5020412d45534148502052455454454c204d554d41423b3330383631,
0x3b3b3b3b3b4e3b3b3b3b3b4c3b303b6f4c3b4e4f464d2041414e20412d45534148502052455454454c204d554d41423b3430383631,
0x3b3b3b3b3b4e3b3b3b3b3b4c3b303b6f4c3b54455548534e4555485320412d45534148502052455454454c204d554d41423b3530383631,
0x3b3b3b3b3b4e3b3b3b3b3b4c3b303b6f4c3b4e4f464d204154495420412d45534148502052455454454c204d554d41423b3630383631,
0x3b3b3b3b3b4e3b3b3b3b3b4c3b303b6f4c3b4e4f464d20415a4e20412d45534148502052455454454c204d554d41423b3730383631,
0x3b3b3b3b3b4e3b3b3b3b3b4c3b303b6f4c3b494a4e2041502041444e49485320412d45534148502052455454454c204d554d41423b3830383631,
0x3b3b3b3b3b4e3b3b3b3b3b4c3b303b6f4c3b45454942474d454150495020494a4e204150204e4f5020412d45534148502052455454454c204d554d41423b3930383631,
0x3b3b3b3b3b4e3b3b3b3b3b4c3b303b6f4c3b41424d454150495020494a4e204150204e4f5020412d45534148502052455454454c204d554d41423b4130383631,
0x3b3b3b3b3b4e3b3b3b3b3b4c3b303b6f4c3b4545494247424d45414d20412d45534148502052455454454c204d554d41423b4230383631,
0x3b3b3b3b3b4e3b3b3b3b3b4c3b303b6f4c3b41424d45414d20555420412d45534148502052455454454c204d554d41423b4330383631,
0x3b3b3b3b3b4e3b3b3b3b3b4c3b303b6f4c3b55474e41474e20412d45534148502052455454454c204d554d41423b4430383631,
0x3b3b3b3b3b4e3b3b3b3b3b4c3b303b6f4c3b585545564d45414d20412d45534148502052455454454c204d554d41423b4530383631,
0x3b3b3b3b3b4e3b3b3b3b3b4c3b303b6f4c3b454155534e414d20412d45534148502052455454454c204d554d41423b4630383631,
0x3b3b3b3b3b4e3b3b3b3b3b4c3b303b6f4c3b4d41474e45415545564d20412d45534148502052455454454c204d554d41423b3031383631,
0x3b3b3b3b3b4e3b3b3b3b3b4c3b303b6f4c3b4d41594e55455320412d45534148502052455454454c204d554d41423b3131383631,
0x3b3b3b3b3b4e3b3b3b3b3b4c3b303b6f4c3b4e4550514f544e20412d45534148502052455454454c204d554d41423b3231383631,
0x3b3b3b3b3b4e3b3b3b3b3b4c3b303b6f4c3b41444e5455454b55454b20412d45534148502052455454454c204d554d41423b3331383631,
0x3b3b3b3b3b4e3b3b3b3b3b4c3b303b6f4c3b49444e494b4e20412d45534148502052455454454c204d554d41423b3431383631,
0x3b3b3b3b3b4e3b3b3b3b3b4c3b303b6f4c3b55555320412d45534148502052455454454c204d554d41423b3531383631,
0x3b3b3b3b3b4e3b3b3b3b3b4c3b303b6f4c3b4d55455a4e45554b474e20412d45534148502052455454454c204d554d41423b3631383631,
0x3b3b3b3b3b4e3b3b3b3b3b4c3b303b6f4c3b514150414c20412d45534148502052455454454c204d554d41423b3731383631,
0x3b3b3b3b3b4e3b3b3b3b3b4c3b303b6f4c3b54554b2054454c20412d45534148502052455454454c204d554d41423b3831383631,
0x3b3b3b3b3b4e3b3b3b3b3b4c3b303b6f4c3b4141464d205041544e20412d45534148502052455454454c204d554d41423b3931383631,
0x3b3b3b3b3b4e3b3b3b3b3b4c3b303b6f4c3b5055454b45414d20412d45534148502052455454454c204d554d41423b4131383631,
0x3b3b3b3b3b4e3b3b3b3b3b4c3b303b6f4c3b45414853415020412d45534148502052455454454c204d554d41423b4231383631,
0x3b3b3b3b3b4e3b3b3b3b3b4c3b303b6f4c3b45415245415545484720412d45534148502052455454454c204d554d41423b4331383631,
0x3b3b3b3b3b4e3b3b3b3b3b4c3b303b6f4c3b454148534d415020412d45534148502052455454454c204d554d41423b4431383631,
0x3b3b3b3b3b4e3b3b3b3b3b4c3b303b6f4c3b544541554547474e204e4f4d20412d45534148502052455454454c204d554d41423b4531383631,
0x3b3b3b3b3b4e3b3b3b3b3b4c3b303b6f4c3b5455454d204e555a4e20412d45534148502052455454454c204d554d41423b4631383631,
0x3b3b3b3b3b4e3b3b3b3b3b4c3b303b6f4c3b45414e20515559205520412d45534148502052455454454c204d554d41423b3032383631,
0x3b3b3b3b3b4e3b3b3b3b3b4c3b303b6f4c3b45415545484745415545484720412d45534148502052455454454c204d554d41423b3132383631,
0x3b3b3b3b3b4e3b3b3b3b3b4c3b303b6f4c3b4141544e205041544e20412d45534148502052455454454c204d554d41423b3232383631,
0x3b3b3b3b3b4e3b3b3b3b3b4c3b303b6f4c3b4153495320412d45534148502052455454454c204d554d41423b3332383631,
0x3b3b3b3b3b4e3b3b3b3b3b4c3b303b6f4c3b41534142474d20412d45534148502052455454454c204d554d41423b3432383631,
0x3b3b3b3b3b4e3b3b3b3b3b4c3b303b6f4c3b515545444e4d4f4a4e55454d20412d45534148502052455454454c204d554d41423b3532383631,
0x3b3b3b3b3b4e3b3b3b3b3b4c3b303b6f4c3b5155504d4f4f4d20412d45534148502052455454454c204d554d41423b3632383631,
0x3b3b3b3b3b4e3b3b3b3b3b4c3b303b6f4c3b4146414b20412d45534148502052455454454c204d554d41423b3732383631,
0x3b3b3b3b3b4e3b3b3b3b3b4c3b303b6f4c3b415745415245454c20415020412d45534148502052455454454c204d554d41423b3832383631,
0x3b3b3b3b3b4e3b3b3b3b3b4c3b303b6f4c3b415745415245454c2041444e20412d45534148502052455454454c204d554d41423b3932383631,
0x3b3b3b3b3b4e3b3b3b3b3b4c3b303b6f4c3b54455020412d45534148502052455454454c204d554d41423b4132383631,
0x3b3b3b3b3b4e3b3b3b3b3b4c3b303b6f4c3b4e45504b4d45414d20412d45534148502052455454454c204d554d41423b4232383631,
0x3b3b3b3b3b4e3b3b3b3b3b4c3b303b6f4c3b414b494e20412d45534148502052455454454c204d554d41423b4332383631,
0x3b3b3b3b3b4e3b3b3b3b3b4c3b303b6f4c3b50555020412d45534148502052455454454c204d554d41423b4432383631,
0x3b3b3b3b3b4e3b3b3b3b3b4c3b303b6f4c3b504541555420412d45534148502052455454454c204d554d41423b4532383631,
0x3b3b3b3b3b4e3b3b3b3b3b4c3b303b6f4c3b504541554c20412d45534148502052455454454c204d554d41423b4632383631,
0x3b3b3b3b3b4e3b3b3b3b3b4c3b303b6f4c3b4d414a4e4f5320412d45534148502052455454454c204d554d41423b3033383631,
0x3b3b3b3b3b4e3b3b3b3b3b4c3b303b6f4c3b4e455755455455455420412d45534148502052455454454c204d554d41423b3133383631,
0x3b3b3b3b3b4e3b3b3b3b3b4c3b303b6f4c3b49594e45414d20412d45534148502052455454454c204d554d41423b3233383631,
0x3b3b3b3b3b4e3b3b3b3b3b4c3b303b6f4c3b54454b20412d45534148502052455454454c204d554d41423b3333383631,
0x3b3b3b3b3b4e3b3b3b3b3b4c3b303b6f4c3b544541554547474e4141444e20412d45534148502052455454454c204d554d41423b3433383631,
0x3b3b3b3b3b4e3b3b3b3b3b4c3b303b6f4c3b514f554b20412d45534148502052455454454c204d554d41423b3533383631,
0x3b3b3b3b3b4e3b3b3b3b3b4c3b303b6f4c3b5455454d4f4f4d20412d45534148502052455454454c204d554d41423b3633383631,
0x3b3b3b3b3b4e3b3b3b3b3b4c3b303b6f4c3b4d55485320412d45534148502052455454454c204d554d41423b3733383631,
0x3b3b3b3b3b4e3b3b3b3b3b4c3b303b6f4c3b45414d4d4f4c20412d45534148502052455454454c204d554d41423b3833383631,
0x3b3b3b3b3b4e3b3b3b3b3b4c3b303b6f4c3b4952494620412d45534148502052455454454c204d554d41423b3933383631,
0x3b3b3b3b3b4e3b3b3b3b3b4c3b303b6f4c3b4d4f5220412d45534148502052455454454c204d554d41423b4133383631,
0x3b3b3b3b3b4e3b3b3b3b3b4c3b303b6f4c3b514f504b20412d45534148502052455454454c204d554d41423b4233383631,
0x3b3b3b3b3b4e3b3b3b3b3b4c3b303b6f4c3b514f5320412d45534148502052455454454c204d554d41423b4333383631,
0x3b3b3b3b3b4e3b3b3b3b3b4c3b303b6f4c3b54454549502050414d20412d45534148502052455454454c204d554d41423b4433383631,
0x3b3b3b3b3b4e3b3b3b3b3b4c3b303b6f4c3b45415249485320412d45534148502052455454454c204d554d41423b4533383631,
0x3b3b3b3b3b4e3b3b3b3b3b4c3b303b6f4c3b5041544e20412d45534148502052455454454c204d554d41423b4633383631,
0x3b3b3b3b3b4e3b3b3b3b3b4c3b303b6f4c3b4d555920545548534e20514f485320412d45534148502052455454454c204d554d41423b3034383631,
0x3b3b3b3b3b4e3b3b3b3b3b4c3b303b6f4c3b51454155454b474e4f4d205449594e20412d45534148502052455454454c204d554d41423b3134383631,
0x3b3b3b3b3b4e3b3b3b3b3b4c3b303b6f4c3b45415241415020412d45534148502052455454454c204d554d41423b3234383631,
0x3b3b3b3b3b4e3b3b3b3b3b4c3b303b6f4c3b45415241414b4e20412d45534148502052455454454c204d554d41423b3334383631,
0x3b3b3b3b3b4e3b3b3b3b3b4c3b303b6f4c3b4e574f4e4b4e5520412d45534148502052455454454c204d554d41423b3434383631,
0x3b3b3b3b3b4e3b3b3b3b3b4c3b303b6f4c3b4e4547474e20412d45534148502052455454454c204d554d41423b3534383631,
0x3b3b3b3b3b4e3b3b3b3b3b4c3b303b6f4c3b495345414d20412d45534148502052455454454c204d554d41423b3634383631,
0x3b3b3b3b3b4e3b3b3b3b3b4c3b303b6f4c3b4d414a4e20412d45534148502052455454454c204d554d41423b3734383631,
0x3b3b3b3b3b4e3b3b3b3b3b4c3b303b6f4c3b49594e41424d20412d45534148502052455454454c204d554d41423b3834383631,
0x3b3b3b3b3b4e3b3b3b3b3b4c3b303b6f4c3b5445594e20412d45534148502052455454454c204d554d41423b3934383631,
0x3b3b3b3b3b4e3b3b3b3b3b4c3b303b6f4c3b4e454155455420412d45534148502052455454454c204d554d41423b4134383631,
0x3b3b3b3b3b4e3b3b3b3b3b4c3b303b6f4c3b544f5320412d45534148502052455454454c204d554d41423b4234383631,
0x3b3b3b3b3b4e3b3b3b3b3b4c3b303b6f4c3b4d41415020412d45534148502052455454454c204d554d41423b4334383631,
0x3b3b3b3b3b4e3b3b3b3b3b4c3b303b6f4c3b45454948534e20412d45534148502052455454454c204d554d41423b4434383631,
0x3b3b3b3b3b4e3b3b3b3b3b4c3b303b6f4c3b4d45414d20412d45534148502052455454454c204d554d41423b4534383631,
0x3b3b3b3b3b4e3b3b3b3b3b4c3b303b6f4c3b49594e20412d45534148502052455454454c204d554d41423b4634383631,
0x3b3b3b3b3b4e3b3b3b3b3b4c3b303b6f4c3b51414b20412d45534148502052455454454c204d554d41423b3035383631,
0x3b3b3b3b3b4e3b3b3b3b3b4c3b303b6f4c3b4148534e20412d45534148502052455454454c204d554d41423b3135383631,
0x3b3b3b3b3b4e3b3b3b3b3b4c3b303b6f4c3b45455620412d45534148502052455454454c204d554d41423b3235383631,
0x3b3b3b3b3b4e3b3b3b3b3b4c3b303b6f4c3b554c20412d45534148502052455454454c204d554d41423b3335383631,
0x3b3b3b3b3b4e3b3b3b3b3b4c3b303b6f4c3b4e454e20412d45534148502052455454454c204d554d41423b3435383631,
0x3b3b3b3b3b4e3b3b3b3b3b4c3b303b6f4c3b51414e20412d45534148502052455454454c204d554d41423b3535383631,
0x3b3b3b3b3b4e3b3b3b3b3b4c3b303b6f4c3b5141424d20412d45534148502052455454454c204d554d41423b3635383631,
0x3b3b3b3b3b4e3b3b3b3b3b4c3b303b6f4c3b54455548534e20422d45534148502052455454454c204d554d41423b3735383631,
0x3b3b3b3b3b4e3b3b3b3b3b4c3b303b6f4c3b45454942474d45414d20555420422d45534148502052455454454c204d554d41423b3835383631,
0x3b3b3b3b3b4e3b3b3b3b3b4c3b303b6f4c3b4545495320422d45534148502052455454454c204d554d41423b3935383631,
0x3b3b3b3b3b4e3b3b3b3b3b4c3b303b6f4c3b55542054455320422d45534148502052455454454c204d554d41423b4135383631,
0x3b3b3b3b3b4e3b3b3b3b3b4c3b303b6f4c3b4d5545544e204d4f4c20422d45534148502052455454454c204d554d41423b4235383631,
0x3b3b3b3b3b4e3b3b3b3b3b4c3b303b6f4c3b45454c45414d2041424d20422d45534148502052455454454c204d554d41423b4335383631,
0x3b3b3b3b3b4e3b3b3b3b3b4c3b303b6f4c3b4d4545494b20422d45534148502052455454454c204d554d41423b4435383631,
0x3b3b3b3b3b4e3b3b3b3b3b4c3b303b6f4c3b45415255455920422d45534148502052455454454c204d554d41423b4535383631,
0x3b3b3b3b3b4e3b3b3b3b3b4c3b303b6f4c3b4541524141424d20422d45534148502052455454454c204d554d41423b4635383631,
0x3b3b3b3b3b4e3b3b3b3b3b4c3b303b6f4c3b4d414b20422d45534148502052455454454c204d554d41423b3036383631,
0x3b3b3b3b3b4e3b3b3b3b3b4c3b303b6f4c3b49485345455020422d45534148502052455454454c204d554d41423b3136383631,
0x3b3b3b3b3b4e3b3b3b3b3b4c3b303b6f4c3b415745415245454c205546415920422d45534148502052455454454c204d554d41423b3236383631,
0x3b3b3b3b3b4e3b3b3b3b3b4c3b303b6f4c3b4d41594e20545548534e204d414c20422d45534148502052455454454c204d554d41423b3336383631,
0x3b3b3b3b3b4e3b3b3b3b3b4c3b303b6f4c3b514f5545485320454549544e20422d45534148502052455454454c204d554d41423b3436383631,
0x3b3b3b3b3b4e3b3b3b3b3b4c3b303b6f4c3b41414a4e2055444e20422d45534148502052455454454c204d554d41423b3536383631,
0x3b3b3b3b3b4e3b3b3b3b3b4c3b303b6f4c3b4d4541554548475545484720422d45534148502052455454454c204d554d41423b3636383631,
0x3b3b3b3b3b4e3b3b3b3b3b4c3b303b6f4c3b54495020422d45534148502052455454454c204d554d41423b3736383631,
0x3b3b3b3b3b4e3b3b3b3b3b4c3b303b6f4c3b454549534e20555420422d45534148502052455454454c204d554d41423b3836383631,
0x3b3b3b3b3b4e3b3b3b3b3b4c3b303b6f4c3b51414a4e205445485320422d45534148502052455454454c204d554d41423b3936383631,
0x3b3b3b3b3b4e3b3b3b3b3b4c3b303b6f4c3b55545145415545485320422d45534148502052455454454c204d554d41423b4136383631,
0x3b3b3b3b3b4e3b3b3b3b3b4c3b303b6f4c3b514541554554204e4f464d20422d45534148502052455454454c204d554d41423b4236383631,
0x3b3b3b3b3b4e3b3b3b3b3b4c3b303b6f4c3b54454b4141424d205449424d20422d45534148502052455454454c204d554d41423b4336383631,
0x3b3b3b3b3b4e3b3b3b3b3b4c3b303b6f4c3b4d5545544e2049594e20422d45534148502052455454454c204d554d41423b4436383631,
0x3b3b3b3b3b4e3b3b3b3b3b4c3b303b6f4c3b51555055454b20422d45534148502052455454454c204d554d41423b4536383631,
0x3b3b3b3b3b4e3b3b3b3b3b4c3b303b6f4c3b4e4548475545484720422d45534148502052455454454c204d554d41423b4636383631,
0x3b3b3b3b3b4e3b3b3b3b3b4c3b303b6f4c3b5855455955454b20422d45534148502052455454454c204d554d41423b3037383631,
0x3b3b3b3b3b4e3b3b3b3b3b4c3b303b6f4c3b45414e41414c20422d45534148502052455454454c204d554d41423b3137383631,
0x3b3b3b3b3b4e3b3b3b3b3b4c3b303b6f4c3b4d5552415020422d45534148502052455454454c204d554d41423b3237383631,
0x3b3b3b3b3b4e3b3b3b3b3b4c3b303b6f4c3b4d55455620422d45534148502052455454454c204d554d41423b3337383631]

/-- src/u5e/props/UnicodeData.txt lines 23297-23552. -/
def rawUcd91 : List Nat := [
0x3b3b3b3b3b4e3b3b3b3b3b4c3b303b6f4c3b504f564d2049444e494b474e20422d45534148502052455454454c204d554d41423b3437383631,
0x3b3b3b3b3b4e3b3b3b3b3b4c3b303b6f4c3b55424d20554547474e20422d45534148502052455454454c204d554d41423b3537383631,
0x3b3b3b3b3b4e3b3b3b3b3b4c3b303b6f4c3b544541555720422d45534148502052455454454c204d554d41423b3637383631,
0x3b3b3b3b3b4e3b3b3b3b3b4c3b303b6f4c3b454155454b415320422d45534148502052455454454c204d554d41423b3737383631,
0x3b3b3b3b3b4e3b3b3b3b3b4c3b303b6f4c3b4d41415420422d45534148502052455454454c204d554d41423b3837383631,
0x3b3b3b3b3b4e3b3b3b3b3b4c3b303b6f4c3b5155454d20422d45534148502052455454454c204d554d41423b3937383631,
0x3b3b3b3b3b4e3b3b3b3b3b4c3b303b6f4c3b514f5547474e20422d45534148502052455454454c204d554d41423b4137383631,
0x3b3b3b3b3b4e3b3b3b3b3b4c3b303b6f4c3b454752414c20514f5547474e20422d45534148502052455454454c204d554d41423b4237383631,
0x3b3b3b3b3b4e3b3b3b3b3b4c3b303b6f4c3b51415949464d20422d45534148502052455454454c204d554d41423b4337383631,
0x3b3b3b3b3b4e3b3b3b3b3b4c3b303b6f4c3b45555320422d45534148502052455454454c204d554d41423b4437383631,
0x3b3b3b3b3b4e3b3b3b3b3b4c3b303b6f4c3b49525545424d20422d45534148502052455454454c204d554d41423b4537383631,
0x3b3b3b3b3b4e3b3b3b3b3b4c3b303b6f4c3b4e454549544e4f4d20422d45534148502052455454454c204d554d41423b4637383631,
0x3b3b3b3b3b4e3b3b3b3b3b4c3b303b6f4c3b45414d4541594e20422d45534148502052455454454c204d554d41423b3038383631,
0x3b3b3b3b3b4e3b3b3b3b3b4c3b303b6f4c3b4d4141474e555020422d45534148502052455454454c204d554d41423b3138383631,
0x3b3b3b3b3b4e3b3b3b3b3b4c3b303b6f4c3b54454547474e205455454d20422d45534148502052455454454c204d554d41423b3238383631,
0x3b3b3b3b3b4e3b3b3b3b3b4c3b303b6f4c3b5855454620422d45534148502052455454454c204d554d41423b3338383631,
0x3b3b3b3b3b4e3b3b3b3b3b4c3b303b6f4c3b514f55424d20422d45534148502052455454454c204d554d41423b3438383631,
0x3b3b3b3b3b4e3b3b3b3b3b4c3b303b6f4c3b45454620422d45534148502052455454454c204d554d41423b3538383631,
0x3b3b3b3b3b4e3b3b3b3b3b4c3b303b6f4c3b4d454155454b20422d45534148502052455454454c204d554d41423b3638383631,
0x3b3b3b3b3b4e3b3b3b3b3b4c3b303b6f4c3b414e454155454a4e20414d20422d45534148502052455454454c204d554d41423b3738383631,
0x3b3b3b3b3b4e3b3b3b3b3b4c3b303b6f4c3b4151554a4e20414d20422d45534148502052455454454c204d554d41423b3838383631,
0x3b3b3b3b3b4e3b3b3b3b3b4c3b303b6f4c3b54454c20422d45534148502052455454454c204d554d41423b3938383631,
0x3b3b3b3b3b4e3b3b3b3b3b4c3b303b6f4c3b4d414147474e20422d45534148502052455454454c204d554d41423b4138383631,
0x3b3b3b3b3b4e3b3b3b3b3b4c3b303b6f4c3b4e45534e20422d45534148502052455454454c204d554d41423b4238383631,
0x3b3b3b3b3b4e3b3b3b3b3b4c3b303b6f4c3b414d20422d45534148502052455454454c204d554d41423b4338383631,
0x3b3b3b3b3b4e3b3b3b3b3b4c3b303b6f4c3b51494b20422d45534148502052455454454c204d554d41423b4438383631,
0x3b3b3b3b3b4e3b3b3b3b3b4c3b303b6f4c3b4d4f474e20422d45534148502052455454454c204d554d41423b4538383631,
0x3b3b3b3b3b4e3b3b3b3b3b4c3b303b6f4c3b41424d45414d2045554b474e20432d45534148502052455454454c204d554d41423b4638383631,
0x3b3b3b3b3b4e3b3b3b3b3b4c3b303b6f4c3b415a4e20432d45534148502052455454454c204d554d41423b3039383631,
0x3b3b3b3b3b4e3b3b3b3b3b4c3b303b6f4c3b4d555920432d45534148502052455454454c204d554d41423b3139383631,
0x3b3b3b3b3b4e3b3b3b3b3b4c3b303b6f4c3b514f554b474e415720432d45534148502052455454454c204d554d41423b3239383631,
0x3b3b3b3b3b4e3b3b3b3b3b4c3b303b6f4c3b4e4547474e20432d45534148502052455454454c204d554d41423b3339383631,
0x3b3b3b3b3b4e3b3b3b3b3b4c3b303b6f4c3b45455245415545444e20432d45534148502052455454454c204d554d41423b3439383631,
0x3b3b3b3b3b4e3b3b3b3b3b4c3b303b6f4c3b51414b474e20432d45534148502052455454454c204d554d41423b3539383631,
0x3b3b3b3b3b4e3b3b3b3b3b4c3b303b6f4c3b45415241484720432d45534148502052455454454c204d554d41423b3639383631,
0x3b3b3b3b3b4e3b3b3b3b3b4c3b303b6f4c3b5445454b4545424d20432d45534148502052455454454c204d554d41423b3739383631,
0x3b3b3b3b3b4e3b3b3b3b3b4c3b303b6f4c3b495941424720432d45534148502052455454454c204d554d41423b3839383631,
0x3b3b3b3b3b4e3b3b3b3b3b4c3b303b6f4c3b4e55454d2051415241504b4d205249594e20432d45534148502052455454454c204d554d41423b3939383631,
0x3b3b3b3b3b4e3b3b3b3b3b4c3b303b6f4c3b5449424d2055544e20432d45534148502052455454454c204d554d41423b4139383631,
0x3b3b3b3b3b4e3b3b3b3b3b4c3b303b6f4c3b4d5545424d20432d45534148502052455454454c204d554d41423b4239383631,
0x3b3b3b3b3b4e3b3b3b3b3b4c3b303b6f4c3b4e45454952495020432d45534148502052455454454c204d554d41423b4339383631,
0x3b3b3b3b3b4e3b3b3b3b3b4c3b303b6f4c3b55424d4f444e20432d45534148502052455454454c204d554d41423b4439383631,
0x3b3b3b3b3b4e3b3b3b3b3b4c3b303b6f4c3b454552542d45474142424143204141424d20432d45534148502052455454454c204d554d41423b4539383631,
0x3b3b3b3b3b4e3b3b3b3b3b4c3b303b6f4c3b5045415545485355454b20432d45534148502052455454454c204d554d41423b4639383631,
0x3b3b3b3b3b4e3b3b3b3b3b4c3b303b6f4c3b5041484720432d45534148502052455454454c204d554d41423b3041383631,
0x3b3b3b3b3b4e3b3b3b3b3b4c3b303b6f4c3b51414b55454b20432d45534148502052455454454c204d554d41423b3141383631,
0x3b3b3b3b3b4e3b3b3b3b3b4c3b303b6f4c3b45414d4f554d20555920432d45534148502052455454454c204d554d41423b3241383631,
0x3b3b3b3b3b4e3b3b3b3b3b4c3b303b6f4c3b4d55455a4e20432d45534148502052455454454c204d554d41423b3341383631,
0x3b3b3b3b3b4e3b3b3b3b3b4c3b303b6f4c3b4555424d20432d45534148502052455454454c204d554d41423b3441383631,
0x3b3b3b3b3b4e3b3b3b3b3b4c3b303b6f4c3b4e45415545534e20432d45534148502052455454454c204d554d41423b3541383631,
0x3b3b3b3b3b4e3b3b3b3b3b4c3b303b6f4c3b5449424d20432d45534148502052455454454c204d554d41423b3641383631,
0x3b3b3b3b3b4e3b3b3b3b3b4c3b303b6f4c3b5155455920432d45534148502052455454454c204d554d41423b3741383631,
0x3b3b3b3b3b4e3b3b3b3b3b4c3b303b6f4c3b51415241504b20432d45534148502052455454454c204d554d41423b3841383631,
0x3b3b3b3b3b4e3b3b3b3b3b4c3b303b6f4c3b41414b20432d45534148502052455454454c204d554d41423b3941383631,
0x3b3b3b3b3b4e3b3b3b3b3b4c3b303b6f4c3b5855455320432d45534148502052455454454c204d554d41423b4141383631,
0x3b3b3b3b3b4e3b3b3b3b3b4c3b303b6f4c3b414449444e20432d45534148502052455454454c204d554d41423b4241383631,
0x3b3b3b3b3b4e3b3b3b3b3b4c3b303b6f4c3b4541485341415420432d45534148502052455454454c204d554d41423b4341383631,
0x3b3b3b3b3b4e3b3b3b3b3b4c3b303b6f4c3b5145554a4e20432d45534148502052455454454c204d554d41423b4441383631,
0x3b3b3b3b3b4e3b3b3b3b3b4c3b303b6f4c3b455559204154495420432d45534148502052455454454c204d554d41423b4541383631,
0x3b3b3b3b3b4e3b3b3b3b3b4c3b303b6f4c3b544541555320432d45534148502052455454454c204d554d41423b4641383631,
0x3b3b3b3b3b4e3b3b3b3b3b4c3b303b6f4c3b4d41594e204e45415547474e20432d45534148502052455454454c204d554d41423b3042383631,
0x3b3b3b3b3b4e3b3b3b3b3b4c3b303b6f4c3b5855455620432d45534148502052455454454c204d554d41423b3142383631,
0x3b3b3b3b3b4e3b3b3b3b3b4c3b303b6f4c3b51414e41534e414e20432d45534148502052455454454c204d554d41423b3242383631,
0x3b3b3b3b3b4e3b3b3b3b3b4c3b303b6f4c3b4952454155454b20414d20432d45534148502052455454454c204d554d41423b3342383631,
0x3b3b3b3b3b4e3b3b3b3b3b4c3b303b6f4c3b4141544e20432d45534148502052455454454c204d554d41423b3442383631,
0x3b3b3b3b3b4e3b3b3b3b3b4c3b303b6f4c3b4e4f5547474e20432d45534148502052455454454c204d554d41423b3542383631,
0x3b3b3b3b3b4e3b3b3b3b3b4c3b303b6f4c3b50414c20432d45534148502052455454454c204d554d41423b3642383631,
0x3b3b3b3b3b4e3b3b3b3b3b4c3b303b6f4c3b4e4545495249424d20432d45534148502052455454454c204d554d41423b3742383631,
0x3b3b3b3b3b4e3b3b3b3b3b4c3b303b6f4c3b5141534142474d20432d45534148502052455454454c204d554d41423b3842383631,
0x3b3b3b3b3b4e3b3b3b3b3b4c3b303b6f4c3b4142474e5545544e20432d45534148502052455454454c204d554d41423b3942383631,
0x3b3b3b3b3b4e3b3b3b3b3b4c3b303b6f4c3b5855455455455420432d45534148502052455454454c204d554d41423b4142383631,
0x3b3b3b3b3b4e3b3b3b3b3b4c3b303b6f4c3b4d5547474e20432d45534148502052455454454c204d554d41423b4242383631,
0x3b3b3b3b3b4e3b3b3b3b3b4c3b303b6f4c3b45554620432d45534148502052455454454c204d554d41423b4342383631,
0x3b3b3b3b3b4e3b3b3b3b3b4c3b303b6f4c3b545545444e20432d45534148502052455454454c204d554d41423b4442383631,
0x3b3b3b3b3b4e3b3b3b3b3b4c3b303b6f4c3b41534e20432d45534148502052455454454c204d554d41423b4542383631,
0x3b3b3b3b3b4e3b3b3b3b3b4c3b303b6f4c3b514148534e20432d45534148502052455454454c204d554d41423b4642383631,
0x3b3b3b3b3b4e3b3b3b3b3b4c3b303b6f4c3b474e554220432d45534148502052455454454c204d554d41423b3043383631,
0x3b3b3b3b3b4e3b3b3b3b3b4c3b303b6f4c3b4e4550454155455620432d45534148502052455454454c204d554d41423b3143383631,
0x3b3b3b3b3b4e3b3b3b3b3b4c3b303b6f4c3b45415245424d20432d45534148502052455454454c204d554d41423b3243383631,
0x3b3b3b3b3b4e3b3b3b3b3b4c3b303b6f4c3b555220432d45534148502052455454454c204d554d41423b3343383631,
0x3b3b3b3b3b4e3b3b3b3b3b4c3b303b6f4c3b4d45414a4e20432d45534148502052455454454c204d554d41423b3443383631,
0x3b3b3b3b3b4e3b3b3b3b3b4c3b303b6f4c3b4d414c20432d45534148502052455454454c204d554d41423b3543383631,
0x3b3b3b3b3b4e3b3b3b3b3b4c3b303b6f4c3b5045415554495420432d45534148502052455454454c204d554d41423b3643383631,
0x3b3b3b3b3b4e3b3b3b3b3b4c3b303b6f4c3b4d4f474e20544f55534e20432d45534148502052455454454c204d554d41423b3743383631,
0x3b3b3b3b3b4e3b3b3b3b3b4c3b303b6f4c3b454545454a4e20432d45534148502052455454454c204d554d41423b3843383631,
0x3b3b3b3b3b4e3b3b3b3b3b4c3b303b6f4c3b54454b20432d45534148502052455454454c204d554d41423b3943383631,
0x3b3b3b3b3b4e3b3b3b3b3b4c3b303b6f4c3b5547474e20432d45534148502052455454454c204d554d41423b4143383631,
0x3b3b3b3b3b4e3b3b3b3b3b4c3b303b6f4c3b495345414d20432d45534148502052455454454c204d554d41423b4243383631,
0x3b3b3b3b3b4e3b3b3b3b3b4c3b303b6f4c3b4d454155424d20432d45534148502052455454454c204d554d41423b4343383631,
0x3b3b3b3b3b4e3b3b3b3b3b4c3b303b6f4c3b554c20432d45534148502052455454454c204d554d41423b4443383631,
0x3b3b3b3b3b4e3b3b3b3b3b4c3b303b6f4c3b54554b20432d45534148502052455454454c204d554d41423b4543383631,
0x3b3b3b3b3b4e3b3b3b3b3b4c3b303b6f4c3b4d414a4e20432d45534148502052455454454c204d554d41423b4643383631,
0x3b3b3b3b3b4e3b3b3b3b3b4c3b303b6f4c3b4d4f474e20432d45534148502052455454454c204d554d41423b3044383631,
0x3b3b3b3b3b4e3b3b3b3b3b4c3b303b6f4c3b50555720432d45534148502052455454454c204d554d41423b3144383631,
0x3b3b3b3b3b4e3b3b3b3b3b4c3b303b6f4c3b5445455547474e20432d45534148502052455454454c204d554d41423b3244383631,
0x3b3b3b3b3b4e3b3b3b3b3b4c3b303b6f4c3b4d4f534e20432d45534148502052455454454c204d554d41423b3344383631,
0x3b3b3b3b3b4e3b3b3b3b3b4c3b303b6f4c3b4e45544e20432d45534148502052455454454c204d554d41423b3444383631,
0x3b3b3b3b3b4e3b3b3b3b3b4c3b303b6f4c3b45415241414b4e20504f554b20432d45534148502052455454454c204d554d41423b3544383631,
0x3b3b3b3b3b4e3b3b3b3b3b4c3b303b6f4c3b4e55534e20432d45534148502052455454454c204d554d41423b3644383631,
0x3b3b3b3b3b4e3b3b3b3b3b4c3b303b6f4c3b4d41444e20432d45534148502052455454454c204d554d41423b3744383631,
0x3b3b3b3b3b4e3b3b3b3b3b4c3b303b6f4c3b454549534e20414d20432d45534148502052455454454c204d554d41423b3844383631,
0x3b3b3b3b3b4e3b3b3b3b3b4c3b303b6f4c3b41415920432d45534148502052455454454c204d554d41423b3944383631,
0x3b3b3b3b3b4e3b3b3b3b3b4c3b303b6f4c3b5041444e20432d45534148502052455454454c204d554d41423b4144383631,
0x3b3b3b3b3b4e3b3b3b3b3b4c3b303b6f4c3b514555485320432d45534148502052455454454c204d554d41423b4244383631,
0x3b3b3b3b3b4e3b3b3b3b3b4c3b303b6f4c3b4e4f4654455320432d45534148502052455454454c204d554d41423b4344383631,
0x3b3b3b3b3b4e3b3b3b3b3b4c3b303b6f4c3b49424d20432d45534148502052455454454c204d554d41423b4444383631,
0x3b3b3b3b3b4e3b3b3b3b3b4c3b303b6f4c3b41424d45414d20432d45534148502052455454454c204d554d41423b4544383631,
0x3b3b3b3b3b4e3b3b3b3b3b4c3b303b6f4c3b49594e41424d20432d45534148502052455454454c204d554d41423b4644383631,
0x3b3b3b3b3b4e3b3b3b3b3b4c3b303b6f4c3b5855455355454b20432d45534148502052455454454c204d554d41423b3045383631,
0x3b3b3b3b3b4e3b3b3b3b3b4c3b303b6f4c3b585545424d20432d45534148502052455454454c204d554d41423b3145383631,
0x3b3b3b3b3b4e3b3b3b3b3b4c3b303b6f4c3b4d55454b20432d45534148502052455454454c204d554d41423b3245383631,
0x3b3b3b3b3b4e3b3b3b3b3b4c3b303b6f4c3b54454b434950204141424d20432d45534148502052455454454c204d554d41423b3345383631,
0x3b3b3b3b3b4e3b3b3b3b3b4c3b303b6f4c3b514f57555920432d45534148502052455454454c204d554d41423b3445383631,
0x3b3b3b3b3b4e3b3b3b3b3b4c3b303b6f4c3b5855454a4e20432d45534148502052455454454c204d554d41423b3545383631,
0x3b3b3b3b3b4e3b3b3b3b3b4c3b303b6f4c3b4545494d20432d45534148502052455454454c204d554d41423b3645383631,
0x3b3b3b3b3b4e3b3b3b3b3b4c3b303b6f4c3b4541554d20432d45534148502052455454454c204d554d41423b3745383631,
0x3b3b3b3b3b4e3b3b3b3b3b4c3b303b6f4c3b5149485320432d45534148502052455454454c204d554d41423b3845383631,
0x3b3b3b3b3b4e3b3b3b3b3b4c3b303b6f4c3b57414c204e454b20432d45534148502052455454454c204d554d41423b3945383631,
0x3b3b3b3b3b4e3b3b3b3b3b4c3b303b6f4c3b45554749544146204e454b20432d45534148502052455454454c204d554d41423b4145383631,
0x3b3b3b3b3b4e3b3b3b3b3b4c3b303b6f4c3b5141474e20432d45534148502052455454454c204d554d41423b4245383631,
0x3b3b3b3b3b4e3b3b3b3b3b4c3b303b6f4c3b51414e20432d45534148502052455454454c204d554d41423b4345383631,
0x3b3b3b3b3b4e3b3b3b3b3b4c3b303b6f4c3b51494c20432d45534148502052455454454c204d554d41423b4445383631,
0x3b3b3b3b3b4e3b3b3b3b3b4c3b303b6f4c3b4e495020432d45534148502052455454454c204d554d41423b4545383631,
0x3b3b3b3b3b4e3b3b3b3b3b4c3b303b6f4c3b4e455020432d45534148502052455454454c204d554d41423b4645383631,
0x3b3b3b3b3b4e3b3b3b3b3b4c3b303b6f4c3b54455420432d45534148502052455454454c204d554d41423b3046383631,
0x3b3b3b3b3b4e3b3b3b3b3b4c3b303b6f4c3b4f55424d20442d45534148502052455454454c204d554d41423b3146383631,
0x3b3b3b3b3b4e3b3b3b3b3b4c3b303b6f4c3b50415720442d45534148502052455454454c204d554d41423b3246383631,
0x3b3b3b3b3b4e3b3b3b3b3b4c3b303b6f4c3b494a4e20442d45534148502052455454454c204d554d41423b3346383631,
0x3b3b3b3b3b4e3b3b3b3b3b4c3b303b6f4c3b4e4f464d20442d45534148502052455454454c204d554d41423b3446383631,
0x3b3b3b3b3b4e3b3b3b3b3b4c3b303b6f4c3b4545494a4e20442d45534148502052455454454c204d554d41423b3546383631,
0x3b3b3b3b3b4e3b3b3b3b3b4c3b303b6f4c3b4545494c20442d45534148502052455454454c204d554d41423b3646383631,
0x3b3b3b3b3b4e3b3b3b3b3b4c3b303b6f4c3b5455454a4e20442d45534148502052455454454c204d554d41423b3746383631,
0x3b3b3b3b3b4e3b3b3b3b3b4c3b303b6f4c3b454548534e20442d45534148502052455454454c204d554d41423b3846383631,
0x3b3b3b3b3b4e3b3b3b3b3b4c3b303b6f4c3b45414d414147474e20442d45534148502052455454454c204d554d41423b3946383631,
0x3b3b3b3b3b4e3b3b3b3b3b4c3b303b6f4c3b4d41594e20442d45534148502052455454454c204d554d41423b4146383631,
0x3b3b3b3b3b4e3b3b3b3b3b4c3b303b6f4c3b4e4541555720442d45534148502052455454454c204d554d41423b4246383631,
0x3b3b3b3b3b4e3b3b3b3b3b4c3b303b6f4c3b4e554b474e20442d45534148502052455454454c204d554d41423b4346383631,
0x3b3b3b3b3b4e3b3b3b3b3b4c3b303b6f4c3b4545485320442d45534148502052455454454c204d554d41423b4446383631,
0x3b3b3b3b3b4e3b3b3b3b3b4c3b303b6f4c3b50414b474e20442d45534148502052455454454c204d554d41423b4546383631,
0x3b3b3b3b3b4e3b3b3b3b3b4c3b303b6f4c3b4e55454d54454155454b20442d45534148502052455454454c204d554d41423b4646383631,
0x3b3b3b3b3b4e3b3b3b3b3b4c3b303b6f4c3b5455455420442d45534148502052455454454c204d554d41423b3030393631,
0x3b3b3b3b3b4e3b3b3b3b3b4c3b303b6f4c3b45415545485320442d45534148502052455454454c204d554d41423b3130393631,
0x3b3b3b3b3b4e3b3b3b3b3b4c3b303b6f4c3b50414a4e20442d45534148502052455454454c204d554d41423b3230393631,
0x3b3b3b3b3b4e3b3b3b3b3b4c3b303b6f4c3b45555320442d45534148502052455454454c204d554d41423b3330393631,
0x3b3b3b3b3b4e3b3b3b3b3b4c3b303b6f4c3b54454b20442d45534148502052455454454c204d554d41423b3430393631,
0x3b3b3b3b3b4e3b3b3b3b3b4c3b303b6f4c3b45414d4d45415920442d45534148502052455454454c204d554d41423b3530393631,
0x3b3b3b3b3b4e3b3b3b3b3b4c3b303b6f4c3b4d4f554b20442d45534148502052455454454c204d554d41423b3630393631,
0x3b3b3b3b3b4e3b3b3b3b3b4c3b303b6f4c3b50415320442d45534148502052455454454c204d554d41423b3730393631,
0x3b3b3b3b3b4e3b3b3b3b3b4c3b303b6f4c3b545545464d20442d45534148502052455454454c204d554d41423b3830393631,
0x3b3b3b3b3b4e3b3b3b3b3b4c3b303b6f4c3b585545444e20442d45534148502052455454454c204d554d41423b3930393631,
0x3b3b3b3b3b4e3b3b3b3b3b4c3b303b6f4c3b495245454c414d20442d45534148502052455454454c204d554d41423b4130393631,
0x3b3b3b3b3b4e3b3b3b3b3b4c3b303b6f4c3b5455454d20442d45534148502052455454454c204d554d41423b4230393631,
0x3b3b3b3b3b4e3b3b3b3b3b4c3b303b6f4c3b51454155455320442d45534148502052455454454c204d554d41423b4330393631,
0x3b3b3b3b3b4e3b3b3b3b3b4c3b303b6f4c3b4e455920442d45534148502052455454454c204d554d41423b4430393631,
0x3b3b3b3b3b4e3b3b3b3b3b4c3b303b6f4c3b4d454155454a4e20442d45534148502052455454454c204d554d41423b4530393631,
0x3b3b3b3b3b4e3b3b3b3b3b4c3b303b6f4c3b454155424d20544f55454b20442d45534148502052455454454c204d554d41423b4630393631,
0x3b3b3b3b3b4e3b3b3b3b3b4c3b303b6f4c3b495255454b474e20442d45534148502052455454454c204d554d41423b3031393631,
0x3b3b3b3b3b4e3b3b3b3b3b4c3b303b6f4c3b555420442d45534148502052455454454c204d554d41423b3131393631,
0x3b3b3b3b3b4e3b3b3b3b3b4c3b303b6f4c3b4141484720442d45534148502052455454454c204d554d41423b3231393631,
0x3b3b3b3b3b4e3b3b3b3b3b4c3b303b6f4c3b4545594b474e20442d45534148502052455454454c204d554d41423b3331393631,
0x3b3b3b3b3b4e3b3b3b3b3b4c3b303b6f4c3b54454155454655454620442d45534148502052455454454c204d554d41423b3431393631,
0x3b3b3b3b3b4e3b3b3b3b3b4c3b303b6f4c3b4545444e20442d45534148502052455454454c204d554d41423b3531393631,
0x3b3b3b3b3b4e3b3b3b3b3b4c3b303b6f4c3b4d55464f42474d20442d45534148502052455454454c204d554d41423b3631393631,
0x3b3b3b3b3b4e3b3b3b3b3b4c3b303b6f4c3b50454155454c20442d45534148502052455454454c204d554d41423b3731393631,
0x3b3b3b3b3b4e3b3b3b3b3b4c3b303b6f4c3b4e4f444e20442d45534148502052455454454c204d554d41423b3831393631,
0x3b3b3b3b3b4e3b3b3b3b3b4c3b303b6f4c3b494e4f4d20442d45534148502052455454454c204d554d41423b3931393631,
0x3b3b3b3b3b4e3b3b3b3b3b4c3b303b6f4c3b4e554542474d20442d45534148502052455454454c204d554d41423b4131393631,
0x3b3b3b3b3b4e3b3b3b3b3b4c3b303b6f4c3b5455555020442d45534148502052455454454c204d554d41423b4231393631,
0x3b3b3b3b3b4e3b3b3b3b3b4c3b303b6f4c3b45454942474d20442d45534148502052455454454c204d554d41423b4331393631,
0x3b3b3b3b3b4e3b3b3b3b3b4c3b303b6f4c3b4f464d20442d45534148502052455454454c204d554d41423b4431393631,
0x3b3b3b3b3b4e3b3b3b3b3b4c3b303b6f4c3b4d554c20442d45534148502052455454454c204d554d41423b4531393631,
0x3b3b3b3b3b4e3b3b3b3b3b4c3b303b6f4c3b50454549534e20442d45534148502052455454454c204d554d41423b4631393631,
0x3b3b3b3b3b4e3b3b3b3b3b4c3b303b6f4c3b4141424d20442d45534148502052455454454c204d554d41423b3032393631,
0x3b3b3b3b3b4e3b3b3b3b3b4c3b303b6f4c3b544541574b20442d45534148502052455454454c204d554d41423b3132393631,
0x3b3b3b3b3b4e3b3b3b3b3b4c3b303b6f4c3b5445594e20442d45534148502052455454454c204d554d41423b3232393631,
0x3b3b3b3b3b4e3b3b3b3b3b4c3b303b6f4c3b4e454155455420442d45534148502052455454454c204d554d41423b3332393631,
0x3b3b3b3b3b4e3b3b3b3b3b4c3b303b6f4c3b544f5320442d45534148502052455454454c204d554d41423b3432393631,
0x3b3b3b3b3b4e3b3b3b3b3b4c3b303b6f4c3b514f57555920442d45534148502052455454454c204d554d41423b3532393631,
0x3b3b3b3b3b4e3b3b3b3b3b4c3b303b6f4c3b4d55454b20442d45534148502052455454454c204d554d41423b3632393631,
0x3b3b3b3b3b4e3b3b3b3b3b4c3b303b6f4c3b4d45415220442d45534148502052455454454c204d554d41423b3732393631,
0x3b3b3b3b3b4e3b3b3b3b3b4c3b303b6f4c3b454545455420442d45534148502052455454454c204d554d41423b3832393631,
0x3b3b3b3b3b4e3b3b3b3b3b4c3b303b6f4c3b51454155454b474e20442d45534148502052455454454c204d554d41423b3932393631,
0x3b3b3b3b3b4e3b3b3b3b3b4c3b303b6f4c3b45415545464d20442d45534148502052455454454c204d554d41423b4132393631,
0x3b3b3b3b3b4e3b3b3b3b3b4c3b303b6f4c3b54454549534e20442d45534148502052455454454c204d554d41423b4232393631,
0x3b3b3b3b3b4e3b3b3b3b3b4c3b303b6f4c3b5055454b20442d45534148502052455454454c204d554d41423b4332393631,
0x3b3b3b3b3b4e3b3b3b3b3b4c3b303b6f4c3b50495020442d45534148502052455454454c204d554d41423b4432393631,
0x3b3b3b3b3b4e3b3b3b3b3b4c3b303b6f4c3b45415455455020442d45534148502052455454454c204d554d41423b4532393631,
0x3b3b3b3b3b4e3b3b3b3b3b4c3b303b6f4c3b4555594e20442d45534148502052455454454c204d554d41423b4632393631,
0x3b3b3b3b3b4e3b3b3b3b3b4c3b303b6f4c3b54454c20442d45534148502052455454454c204d554d41423b3033393631,
0x3b3b3b3b3b4e3b3b3b3b3b4c3b303b6f4c3b4d414147474e20442d45534148502052455454454c204d554d41423b3133393631,
0x3b3b3b3b3b4e3b3b3b3b3b4c3b303b6f4c3b454549464d20442d45534148502052455454454c204d554d41423b3233393631,
0x3b3b3b3b3b4e3b3b3b3b3b4c3b303b6f4c3b4e45415747474e20442d45534148502052455454454c204d554d41423b3333393631,
0x3b3b3b3b3b4e3b3b3b3b3b4c3b303b6f4c3b4d4f555920442d45534148502052455454454c204d554d41423b3433393631,
0x3b3b3b3b3b4e3b3b3b3b3b4c3b303b6f4c3b50415020442d45534148502052455454454c204d554d41423b3533393631,
0x3b3b3b3b3b4e3b3b3b3b3b4c3b303b6f4c3b504f555920442d45534148502052455454454c204d554d41423b3633393631,
0x3b3b3b3b3b4e3b3b3b3b3b4c3b303b6f4c3b4d41444e20442d45534148502052455454454c204d554d41423b3733393631,
0x3b3b3b3b3b4e3b3b3b3b3b4c3b303b6f4c3b4d5545544e20442d45534148502052455454454c204d554d41423b3833393631,
0x3b3b3b3b3b4e3b3b3b3b3b4c3b303b6f4c3b4541555320442d45534148502052455454454c204d554d41423b3933393631,
0x3b3b3b3b3b4e3b3b3b3b3b4c3b303b6f4c3b4e554b20442d45534148502052455454454c204d554d41423b4133393631,
0x3b3b3b3b3b4e3b3b3b3b3b4c3b303b6f4c3b58554547474e20442d45534148502052455454454c204d554d41423b4233393631,
0x3b3b3b3b3b4e3b3b3b3b3b4c3b303b6f4c3b4545494b474e20442d45534148502052455454454c204d554d41423b4333393631,
0x3b3b3b3b3b4e3b3b3b3b3b4c3b303b6f4c3b544f555420442d45534148502052455454454c204d554d41423b4433393631,
0x3b3b3b3b3b4e3b3b3b3b3b4c3b303b6f4c3b4e55454d20442d45534148502052455454454c204d554d41423b4533393631,
0x3b3b3b3b3b4e3b3b3b3b3b4c3b303b6f4c3b51554b20442d45534148502052455454454c204d554d41423b4633393631,
0x3b3b3b3b3b4e3b3b3b3b3b4c3b303b6f4c3b4d55534e20442d45534148502052455454454c204d554d41423b3034393631,
0x3b3b3b3b3b4e3b3b3b3b3b4c3b303b6f4c3b4e55455420442d45534148502052455454454c204d554d41423b3134393631,
0x3b3b3b3b3b4e3b3b3b3b3b4c3b303b6f4c3b54454a4e45414d20442d45534148502052455454454c204d554d41423b3234393631,
0x3b3b3b3b3b4e3b3b3b3b3b4c3b303b6f4c3b504147474e20442d45534148502052455454454c204d554d41423b3334393631,
0x3b3b3b3b3b4e3b3b3b3b3b4c3b303b6f4c3b4d55454c20442d45534148502052455454454c204d554d41423b3434393631,
0x3b3b3b3b3b4e3b3b3b3b3b4c3b303b6f4c3b4d4f5547474e20442d45534148502052455454454c204d554d41423b3534393631,
0x3b3b3b3b3b4e3b3b3b3b3b4c3b303b6f4c3b545548534e20442d45534148502052455454454c204d554d41423b3634393631,
0x3b3b3b3b3b4e3b3b3b3b3b4c3b303b6f4c3b5145554a4e20442d45534148502052455454454c204d554d41423b3734393631,
0x3b3b3b3b3b4e3b3b3b3b3b4c3b303b6f4c3b45415545484720442d45534148502052455454454c204d554d41423b3834393631,
0x3b3b3b3b3b4e3b3b3b3b3b4c3b303b6f4c3b554b20442d45534148502052455454454c204d554d41423b3934393631,
0x3b3b3b3b3b4e3b3b3b3b3b4c3b303b6f4c3b444c4f204e455220442d45534148502052455454454c204d554d41423b4134393631,
0x3b3b3b3b3b4e3b3b3b3b3b4c3b303b6f4c3b45415420442d45534148502052455454454c204d554d41423b4234393631,
0x3b3b3b3b3b4e3b3b3b3b3b4c3b303b6f4c3b514f5420442d45534148502052455454454c204d554d41423b4334393631,
0x3b3b3b3b3b4e3b3b3b3b3b4c3b303b6f4c3b49594e20442d45534148502052455454454c204d554d41423b4434393631,
0x3b3b3b3b3b4e3b3b3b3b3b4c3b303b6f4c3b49495220442d45534148502052455454454c204d554d41423b4534393631,
0x3b3b3b3b3b4e3b3b3b3b3b4c3b303b6f4c3b454545454c20442d45534148502052455454454c204d554d41423b4634393631,
0x3b3b3b3b3b4e3b3b3b3b3b4c3b303b6f4c3b454545454d20442d45534148502052455454454c204d554d41423b3035393631,
0x3b3b3b3b3b4e3b3b3b3b3b4c3b303b6f4c3b4d20442d45534148502052455454454c204d554d41423b3135393631,
0x3b3b3b3b3b4e3b3b3b3b3b4c3b303b6f4c3b55555320442d45534148502052455454454c204d554d41423b3235393631,
0x3b3b3b3b3b4e3b3b3b3b3b4c3b303b6f4c3b554d20442d45534148502052455454454c204d554d41423b3335393631,
0x3b3b3b3b3b4e3b3b3b3b3b4c3b303b6f4c3b4949485320442d45534148502052455454454c204d554d41423b3435393631,
0x3b3b3b3b3b4e3b3b3b3b3b4c3b303b6f4c3b585545485320442d45534148502052455454454c204d554d41423b3535393631,
0x3b3b3b3b3b4e3b3b3b3b3b4c3b303b6f4c3b4545594b20442d45534148502052455454454c204d554d41423b3635393631,
0x3b3b3b3b3b4e3b3b3b3b3b4c3b303b6f4c3b554e20442d45534148502052455454454c204d554d41423b3735393631,
0x3b3b3b3b3b4e3b3b3b3b3b4c3b303b6f4c3b55485320442d45534148502052455454454c204d554d41423b3835393631,
0x3b3b3b3b3b4e3b3b3b3b3b4c3b303b6f4c3b4545544e20442d45534148502052455454454c204d554d41423b3935393631,
0x3b3b3b3b3b4e3b3b3b3b3b4c3b303b6f4c3b45455020442d45534148502052455454454c204d554d41423b4135393631,
0x3b3b3b3b3b4e3b3b3b3b3b4c3b303b6f4c3b494e20442d45534148502052455454454c204d554d41423b4235393631,
0x3b3b3b3b3b4e3b3b3b3b3b4c3b303b6f4c3b514f485320442d45534148502052455454454c204d554d41423b4335393631,
0x3b3b3b3b3b4e3b3b3b3b3b4c3b303b6f4c3b51555020442d45534148502052455454454c204d554d41423b4435393631,
0x3b3b3b3b3b4e3b3b3b3b3b4c3b303b6f4c3b504f564d20442d45534148502052455454454c204d554d41423b4535393631,
0x3b3b3b3b3b4e3b3b3b3b3b4c3b303b6f4c3b514f4c20442d45534148502052455454454c204d554d41423b4635393631,
0x3b3b3b3b3b4e3b3b3b3b3b4c3b303b6f4c3b4843554d204e455220442d45534148502052455454454c204d554d41423b3036393631,
0x3b3b3b3b3b4e3b3b3b3b3b4c3b303b6f4c3b495420442d45534148502052455454454c204d554d41423b3136393631,
0x3b3b3b3b3b4e3b3b3b3b3b4c3b303b6f4c3b5555544e20442d45534148502052455454454c204d554d41423b3236393631,
0x3b3b3b3b3b4e3b3b3b3b3b4c3b303b6f4c3b4e45564553204141424d20442d45534148502052455454454c204d554d41423b3336393631,
0x3b3b3b3b3b4e3b3b3b3b3b4c3b303b6f4c3b51415320442d45534148502052455454454c204d554d41423b3436393631,
0x3b3b3b3b3b4e3b3b3b3b3b4c3b303b6f4c3b41414620442d45534148502052455454454c204d554d41423b3536393631,
0x3b3b3b3b3b4e3b3b3b3b3b4c3b303b6f4c3b5041444e20452d45534148502052455454454c204d554d41423b3636393631,
0x3b3b3b3b3b4e3b3b3b3b3b4c3b303b6f4c3b4e4f4f5420452d45534148502052455454454c204d554d41423b3736393631,
0x3b3b3b3b3b4e3b3b3b3b3b4c3b303b6f4c3b4d5545424d20452d45534148502052455454454c204d554d41423b3836393631,
0x3b3b3b3b3b4e3b3b3b3b3b4c3b303b6f4c3b50414c20452d45534148502052455454454c204d554d41423b3936393631,
0x3b3b3b3b3b4e3b3b3b3b3b4c3b303b6f4c3b4d4f5620452d45534148502052455454454c204d554d41423b4136393631,
0x3b3b3b3b3b4e3b3b3b3b3b4c3b303b6f4c3b4e4f4f4c20452d45534148502052455454454c204d554d41423b4236393631,
0x3b3b3b3b3b4e3b3b3b3b3b4c3b303b6f4c3b41415020452d45534148502052455454454c204d554d41423b4336393631,
0x3b3b3b3b3b4e3b3b3b3b3b4c3b303b6f4c3b4d4f5320452d45534148502052455454454c204d554d41423b4436393631,
0x3b3b3b3b3b4e3b3b3b3b3b4c3b303b6f4c3b51415220452d45534148502052455454454c204d554d41423b4536393631,
0x3b3b3b3b3b4e3b3b3b3b3b4c3b303b6f4c3b504f5548534e20452d45534148502052455454454c204d554d41423b4636393631,
0x3b3b3b3b3b4e3b3b3b3b3b4c3b303b6f4c3b4e55444e20452d45534148502052455454454c204d554d41423b3037393631,
0x3b3b3b3b3b4e3b3b3b3b3b4c3b303b6f4c3b4541555020452d45534148502052455454454c204d554d41423b3137393631,
0x3b3b3b3b3b4e3b3b3b3b3b4c3b303b6f4c3b4d415420452d45534148502052455454454c204d554d41423b3237393631,
0x3b3b3b3b3b4e3b3b3b3b3b4c3b303b6f4c3b414b474e20452d45534148502052455454454c204d554d41423b3337393631]

/-- src/u5e/props/UnicodeData.txt lines 23553-23808. -/
def rawUcd92 : List Nat := [
0x3b3b3b3b3b4e3b3b3b3b3b4c3b303b6f4c3b585545504b20452d45534148502052455454454c204d554d41423b3437393631,
0x3b3b3b3b3b4e3b3b3b3b3b4c3b303b6f4c3b4f555720452d45534148502052455454454c204d554d41423b3537393631,
0x3b3b3b3b3b4e3b3b3b3b3b4c3b303b6f4c3b45455320452d45534148502052455454454c204d554d41423b3637393631,
0x3b3b3b3b3b4e3b3b3b3b3b4c3b303b6f4c3b544541554547474e20452d45534148502052455454454c204d554d41423b3737393631,
0x3b3b3b3b3b4e3b3b3b3b3b4c3b303b6f4c3b4d41415020452d45534148502052455454454c204d554d41423b3837393631,
0x3b3b3b3b3b4e3b3b3b3b3b4c3b303b6f4c3b4f4f5420452d45534148502052455454454c204d554d41423b3937393631,
0x3b3b3b3b3b4e3b3b3b3b3b4c3b303b6f4c3b504f554b20452d45534148502052455454454c204d554d41423b4137393631,
0x3b3b3b3b3b4e3b3b3b3b3b4c3b303b6f4c3b4d4f4c20452d45534148502052455454454c204d554d41423b4237393631,
0x3b3b3b3b3b4e3b3b3b3b3b4c3b303b6f4c3b45454948534e20452d45534148502052455454454c204d554d41423b4337393631,
0x3b3b3b3b3b4e3b3b3b3b3b4c3b303b6f4c3b504f474e20452d45534148502052455454454c204d554d41423b4437393631,
0x3b3b3b3b3b4e3b3b3b3b3b4c3b303b6f4c3b4d45414d20452d45534148502052455454454c204d554d41423b4537393631,
0x3b3b3b3b3b4e3b3b3b3b3b4c3b303b6f4c3b5855454b474e20452d45534148502052455454454c204d554d41423b4637393631,
0x3b3b3b3b3b4e3b3b3b3b3b4c3b303b6f4c3b514f474e20452d45534148502052455454454c204d554d41423b3038393631,
0x3b3b3b3b3b4e3b3b3b3b3b4c3b303b6f4c3b455548534e20452d45534148502052455454454c204d554d41423b3138393631,
0x3b3b3b3b3b4e3b3b3b3b3b4c3b303b6f4c3b4142474d495220452d45534148502052455454454c204d554d41423b3238393631,
0x3b3b3b3b3b4e3b3b3b3b3b4c3b303b6f4c3b5855454a4e20452d45534148502052455454454c204d554d41423b3338393631,
0x3b3b3b3b3b4e3b3b3b3b3b4c3b303b6f4c3b4d45455020452d45534148502052455454454c204d554d41423b3438393631,
0x3b3b3b3b3b4e3b3b3b3b3b4c3b303b6f4c3b41415320452d45534148502052455454454c204d554d41423b3538393631,
0x3b3b3b3b3b4e3b3b3b3b3b4c3b303b6f4c3b4541525547474e20452d45534148502052455454454c204d554d41423b3638393631,
0x3b3b3b3b3b4e3b3b3b3b3b4c3b303b6f4c3b4142474d20452d45534148502052455454454c204d554d41423b3738393631,
0x3b3b3b3b3b4e3b3b3b3b3b4c3b303b6f4c3b585545484720452d45534148502052455454454c204d554d41423b3838393631,
0x3b3b3b3b3b4e3b3b3b3b3b4c3b303b6f4c3b4d454155454b474e20452d45534148502052455454454c204d554d41423b3938393631,
0x3b3b3b3b3b4e3b3b3b3b3b4c3b303b6f4c3b494c4d45414a4e20452d45534148502052455454454c204d554d41423b4138393631,
0x3b3b3b3b3b4e3b3b3b3b3b4c3b303b6f4c3b50414d20452d45534148502052455454454c204d554d41423b4238393631,
0x3b3b3b3b3b4e3b3b3b3b3b4c3b303b6f4c3b544f4f4c20452d45534148502052455454454c204d554d41423b4338393631,
0x3b3b3b3b3b4e3b3b3b3b3b4c3b303b6f4c3b4545454547474e20452d45534148502052455454454c204d554d41423b4438393631,
0x3b3b3b3b3b4e3b3b3b3b3b4c3b303b6f4c3b5149444e20452d45534148502052455454454c204d554d41423b4538393631,
0x3b3b3b3b3b4e3b3b3b3b3b4c3b303b6f4c3b4d5545544e204e45415420452d45534148502052455454454c204d554d41423b4638393631,
0x3b3b3b3b3b4e3b3b3b3b3b4c3b303b6f4c3b54455320452d45534148502052455454454c204d554d41423b3039393631,
0x3b3b3b3b3b4e3b3b3b3b3b4c3b303b6f4c3b4d555020452d45534148502052455454454c204d554d41423b3139393631,
0x3b3b3b3b3b4e3b3b3b3b3b4c3b303b6f4c3b5353454e54464f53204141444e20452d45534148502052455454454c204d554d41423b3239393631,
0x3b3b3b3b3b4e3b3b3b3b3b4c3b303b6f4c3b4d41594e204541485345415547474e20452d45534148502052455454454c204d554d41423b3339393631,
0x3b3b3b3b3b4e3b3b3b3b3b4c3b303b6f4c3b4545495920452d45534148502052455454454c204d554d41423b3439393631,
0x3b3b3b3b3b4e3b3b3b3b3b4c3b303b6f4c3b4e5545484720452d45534148502052455454454c204d554d41423b3539393631,
0x3b3b3b3b3b4e3b3b3b3b3b4c3b303b6f4c3b4541555420452d45534148502052455454454c204d554d41423b3639393631,
0x3b3b3b3b3b4e3b3b3b3b3b4c3b303b6f4c3b454155455920452d45534148502052455454454c204d554d41423b3739393631,
0x3b3b3b3b3b4e3b3b3b3b3b4c3b303b6f4c3b4f5020452d45534148502052455454454c204d554d41423b3839393631,
0x3b3b3b3b3b4e3b3b3b3b3b4c3b303b6f4c3b45414d555420452d45534148502052455454454c204d554d41423b3939393631,
0x3b3b3b3b3b4e3b3b3b3b3b4c3b303b6f4c3b454155454b20452d45534148502052455454454c204d554d41423b4139393631,
0x3b3b3b3b3b4e3b3b3b3b3b4c3b303b6f4c3b4e4541555320452d45534148502052455454454c204d554d41423b4239393631,
0x3b3b3b3b3b4e3b3b3b3b3b4c3b303b6f4c3b51454155455420452d45534148502052455454454c204d554d41423b4339393631,
0x3b3b3b3b3b4e3b3b3b3b3b4c3b303b6f4c3b454155455620452d45534148502052455454454c204d554d41423b4439393631,
0x3b3b3b3b3b4e3b3b3b3b3b4c3b303b6f4c3b5855455720452d45534148502052455454454c204d554d41423b4539393631,
0x3b3b3b3b3b4e3b3b3b3b3b4c3b303b6f4c3b4d41414c20452d45534148502052455454454c204d554d41423b4639393631,
0x3b3b3b3b3b4e3b3b3b3b3b4c3b303b6f4c3b555020452d45534148502052455454454c204d554d41423b3041393631,
0x3b3b3b3b3b4e3b3b3b3b3b4c3b303b6f4c3b5141415420452d45534148502052455454454c204d554d41423b3141393631,
0x3b3b3b3b3b4e3b3b3b3b3b4c3b303b6f4c3b45414d4141484720452d45534148502052455454454c204d554d41423b3241393631,
0x3b3b3b3b3b4e3b3b3b3b3b4c3b303b6f4c3b545545525545474e20452d45534148502052455454454c204d554d41423b3341393631,
0x3b3b3b3b3b4e3b3b3b3b3b4c3b303b6f4c3b5145415545485320452d45534148502052455454454c204d554d41423b3441393631,
0x3b3b3b3b3b4e3b3b3b3b3b4c3b303b6f4c3b4e4542474d20452d45534148502052455454454c204d554d41423b3541393631,
0x3b3b3b3b3b4e3b3b3b3b3b4c3b303b6f4c3b4545424d20452d45534148502052455454454c204d554d41423b3641393631,
0x3b3b3b3b3b4e3b3b3b3b3b4c3b303b6f4c3b51415a4e20452d45534148502052455454454c204d554d41423b3741393631,
0x3b3b3b3b3b4e3b3b3b3b3b4c3b303b6f4c3b4d4f4b4e20452d45534148502052455454454c204d554d41423b3841393631,
0x3b3b3b3b3b4e3b3b3b3b3b4c3b303b6f4c3b5445424720452d45534148502052455454454c204d554d41423b3941393631,
0x3b3b3b3b3b4e3b3b3b3b3b4c3b303b6f4c3b4d555420452d45534148502052455454454c204d554d41423b4141393631,
0x3b3b3b3b3b4e3b3b3b3b3b4c3b303b6f4c3b5445554b20452d45534148502052455454454c204d554d41423b4241393631,
0x3b3b3b3b3b4e3b3b3b3b3b4c3b303b6f4c3b50415920452d45534148502052455454454c204d554d41423b4341393631,
0x3b3b3b3b3b4e3b3b3b3b3b4c3b303b6f4c3b52455641454c432049594e20452d45534148502052455454454c204d554d41423b4441393631,
0x3b3b3b3b3b4e3b3b3b3b3b4c3b303b6f4c3b54495920452d45534148502052455454454c204d554d41423b4541393631,
0x3b3b3b3b3b4e3b3b3b3b3b4c3b303b6f4c3b515545464d20452d45534148502052455454454c204d554d41423b4641393631,
0x3b3b3b3b3b4e3b3b3b3b3b4c3b303b6f4c3b514149444e20452d45534148502052455454454c204d554d41423b3042393631,
0x3b3b3b3b3b4e3b3b3b3b3b4c3b303b6f4c3b514545495020452d45534148502052455454454c204d554d41423b3142393631,
0x3b3b3b3b3b4e3b3b3b3b3b4c3b303b6f4c3b5145555920452d45534148502052455454454c204d554d41423b3242393631,
0x3b3b3b3b3b4e3b3b3b3b3b4c3b303b6f4c3b4d454155454c20452d45534148502052455454454c204d554d41423b3342393631,
0x3b3b3b3b3b4e3b3b3b3b3b4c3b303b6f4c3b45554620452d45534148502052455454454c204d554d41423b3442393631,
0x3b3b3b3b3b4e3b3b3b3b3b4c3b303b6f4c3b585545424720452d45534148502052455454454c204d554d41423b3542393631,
0x3b3b3b3b3b4e3b3b3b3b3b4c3b303b6f4c3b50554b474e20452d45534148502052455454454c204d554d41423b3642393631,
0x3b3b3b3b3b4e3b3b3b3b3b4c3b303b6f4c3b54454b20452d45534148502052455454454c204d554d41423b3742393631,
0x3b3b3b3b3b4e3b3b3b3b3b4c3b303b6f4c3b45414d20452d45534148502052455454454c204d554d41423b3842393631,
0x3b3b3b3b3b4e3b3b3b3b3b4c3b303b6f4c3b494d41414b474e20452d45534148502052455454454c204d554d41423b3942393631,
0x3b3b3b3b3b4e3b3b3b3b3b4c3b303b6f4c3b5445484720452d45534148502052455454454c204d554d41423b4142393631,
0x3b3b3b3b3b4e3b3b3b3b3b4c3b303b6f4c3b414620452d45534148502052455454454c204d554d41423b4242393631,
0x3b3b3b3b3b4e3b3b3b3b3b4c3b303b6f4c3b4d55544e20452d45534148502052455454454c204d554d41423b4342393631,
0x3b3b3b3b3b4e3b3b3b3b3b4c3b303b6f4c3b5455455020452d45534148502052455454454c204d554d41423b4442393631,
0x3b3b3b3b3b4e3b3b3b3b3b4c3b303b6f4c3b4d55455920452d45534148502052455454454c204d554d41423b4542393631,
0x3b3b3b3b3b4e3b3b3b3b3b4c3b303b6f4c3b4541554547474e20452d45534148502052455454454c204d554d41423b4642393631,
0x3b3b3b3b3b4e3b3b3b3b3b4c3b303b6f4c3b4e4545575445422049594e20452d45534148502052455454454c204d554d41423b3043393631,
0x3b3b3b3b3b4e3b3b3b3b3b4c3b303b6f4c3b51555a4e20452d45534148502052455454454c204d554d41423b3143393631,
0x3b3b3b3b3b4e3b3b3b3b3b4c3b303b6f4c3b4e4f4f5020452d45534148502052455454454c204d554d41423b3243393631,
0x3b3b3b3b3b4e3b3b3b3b3b4c3b303b6f4c3b4545494d20452d45534148502052455454454c204d554d41423b3343393631,
0x3b3b3b3b3b4e3b3b3b3b3b4c3b303b6f4c3b5445554620452d45534148502052455454454c204d554d41423b3443393631,
0x3b3b3b3b3b4e3b3b3b3b3b4c3b303b6f4c3b45414e20452d45534148502052455454454c204d554d41423b3543393631,
0x3b3b3b3b3b4e3b3b3b3b3b4c3b303b6f4c3b4541554d20452d45534148502052455454454c204d554d41423b3643393631,
0x3b3b3b3b3b4e3b3b3b3b3b4c3b303b6f4c3b45415545484720452d45534148502052455454454c204d554d41423b3743393631,
0x3b3b3b3b3b4e3b3b3b3b3b4c3b303b6f4c3b4920554620452d45534148502052455454454c204d554d41423b3843393631,
0x3b3b3b3b3b4e3b3b3b3b3b4c3b303b6f4c3b49564d20452d45534148502052455454454c204d554d41423b3943393631,
0x3b3b3b3b3b4e3b3b3b3b3b4c3b303b6f4c3b5141555020452d45534148502052455454454c204d554d41423b4143393631,
0x3b3b3b3b3b4e3b3b3b3b3b4c3b303b6f4c3b4d554b474e20452d45534148502052455454454c204d554d41423b4243393631,
0x3b3b3b3b3b4e3b3b3b3b3b4c3b303b6f4c3b54554b20452d45534148502052455454454c204d554d41423b4343393631,
0x3b3b3b3b3b4e3b3b3b3b3b4c3b303b6f4c3b5445495020452d45534148502052455454454c204d554d41423b4443393631,
0x3b3b3b3b3b4e3b3b3b3b3b4c3b303b6f4c3b5041544e20452d45534148502052455454454c204d554d41423b4543393631,
0x3b3b3b3b3b4e3b3b3b3b3b4c3b303b6f4c3b54454155455920452d45534148502052455454454c204d554d41423b4643393631,
0x3b3b3b3b3b4e3b3b3b3b3b4c3b303b6f4c3b505547474e20452d45534148502052455454454c204d554d41423b3044393631,
0x3b3b3b3b3b4e3b3b3b3b3b4c3b303b6f4c3b454c504f455020415020452d45534148502052455454454c204d554d41423b3144393631,
0x3b3b3b3b3b4e3b3b3b3b3b4c3b303b6f4c3b4c4c414320554620452d45534148502052455454454c204d554d41423b3244393631,
0x3b3b3b3b3b4e3b3b3b3b3b4c3b303b6f4c3b4d4f4620452d45534148502052455454454c204d554d41423b3344393631,
0x3b3b3b3b3b4e3b3b3b3b3b4c3b303b6f4c3b45454a4e20452d45534148502052455454454c204d554d41423b3444393631,
0x3b3b3b3b3b4e3b3b3b3b3b4c3b303b6f4c3b4120452d45534148502052455454454c204d554d41423b3544393631,
0x3b3b3b3b3b4e3b3b3b3b3b4c3b303b6f4c3b514f5420452d45534148502052455454454c204d554d41423b3644393631,
0x3b3b3b3b3b4e3b3b3b3b3b4c3b303b6f4c3b4f20452d45534148502052455454454c204d554d41423b3744393631,
0x3b3b3b3b3b4e3b3b3b3b3b4c3b303b6f4c3b4920452d45534148502052455454454c204d554d41423b3844393631,
0x3b3b3b3b3b4e3b3b3b3b3b4c3b303b6f4c3b51414c20452d45534148502052455454454c204d554d41423b3944393631,
0x3b3b3b3b3b4e3b3b3b3b3b4c3b303b6f4c3b4c4152554c5020415020452d45534148502052455454454c204d554d41423b4144393631,
0x3b3b3b3b3b4e3b3b3b3b3b4c3b303b6f4c3b41415420452d45534148502052455454454c204d554d41423b4244393631,
0x3b3b3b3b3b4e3b3b3b3b3b4c3b303b6f4c3b51415420452d45534148502052455454454c204d554d41423b4344393631,
0x3b3b3b3b3b4e3b3b3b3b3b4c3b303b6f4c3b4553554f4820594d204141444e20452d45534148502052455454454c204d554d41423b4444393631,
0x3b3b3b3b3b4e3b3b3b3b3b4c3b303b6f4c3b5149485320452d45534148502052455454454c204d554d41423b4544393631,
0x3b3b3b3b3b4e3b3b3b3b3b4c3b303b6f4c3b5855455920452d45534148502052455454454c204d554d41423b4644393631,
0x3b3b3b3b3b4e3b3b3b3b3b4c3b303b6f4c3b454155474e20452d45534148502052455454454c204d554d41423b3045393631,
0x3b3b3b3b3b4e3b3b3b3b3b4c3b303b6f4c3b4e4541555920452d45534148502052455454454c204d554d41423b3145393631,
0x3b3b3b3b3b4e3b3b3b3b3b4c3b303b6f4c3b474e494d4d49575320514f5920452d45534148502052455454454c204d554d41423b3245393631,
0x3b3b3b3b3b4e3b3b3b3b3b4c3b303b6f4c3b5245564f4320514f5920452d45534148502052455454454c204d554d41423b3345393631,
0x3b3b3b3b3b4e3b3b3b3b3b4c3b303b6f4c3b51555920452d45534148502052455454454c204d554d41423b3445393631,
0x3b3b3b3b3b4e3b3b3b3b3b4c3b303b6f4c3b4e555920452d45534148502052455454454c204d554d41423b3545393631,
0x3b3b3b3b3b4e3b3b3b3b3b4c3b303b6f4c3b5855454b20452d45534148502052455454454c204d554d41423b3645393631,
0x3b3b3b3b3b4e3b3b3b3b3b4c3b303b6f4c3b5855455020452d45534148502052455454454c204d554d41423b3745393631,
0x3b3b3b3b3b4e3b3b3b3b3b4c3b303b6f4c3b48434f50452045454a4e20452d45534148502052455454454c204d554d41423b3845393631,
0x3b3b3b3b3b4e3b3b3b3b3b4c3b303b6f4c3b45555020452d45534148502052455454454c204d554d41423b3945393631,
0x3b3b3b3b3b4e3b3b3b3b3b4c3b303b6f4c3b45555720452d45534148502052455454454c204d554d41423b4145393631,
0x3b3b3b3b3b4e3b3b3b3b3b4c3b303b6f4c3b45454620452d45534148502052455454454c204d554d41423b4245393631,
0x3b3b3b3b3b4e3b3b3b3b3b4c3b303b6f4c3b45455620452d45534148502052455454454c204d554d41423b4345393631,
0x3b3b3b3b3b4e3b3b3b3b3b4c3b303b6f4c3b554c20452d45534148502052455454454c204d554d41423b4445393631,
0x3b3b3b3b3b4e3b3b3b3b3b4c3b303b6f4c3b494d20452d45534148502052455454454c204d554d41423b4545393631,
0x3b3b3b3b3b4e3b3b3b3b3b4c3b303b6f4c3b5855455220452d45534148502052455454454c204d554d41423b4645393631,
0x3b3b3b3b3b4e3b3b3b3b3b4c3b303b6f4c3b45415220452d45534148502052455454454c204d554d41423b3046393631,
0x3b3b3b3b3b4e3b3b3b3b3b4c3b303b6f4c3b54454155474e20452d45534148502052455454454c204d554d41423b3146393631,
0x3b3b3b3b3b4e3b3b3b3b3b4c3b303b6f4c3b41474e20452d45534148502052455454454c204d554d41423b3246393631,
0x3b3b3b3b3b4e3b3b3b3b3b4c3b303b6f4c3b4f485320452d45534148502052455454454c204d554d41423b3346393631,
0x3b3b3b3b3b4e3b3b3b3b3b4c3b303b6f4c3b514f485320452d45534148502052455454454c204d554d41423b3446393631,
0x3b3b3b3b3b4e3b3b3b3b3b4c3b303b6f4c3b5944454d455220554620452d45534148502052455454454c204d554d41423b3546393631,
0x3b3b3b3b3b4e3b3b3b3b3b4c3b303b6f4c3b414e20452d45534148502052455454454c204d554d41423b3646393631,
0x3b3b3b3b3b4e3b3b3b3b3b4c3b303b6f4c3b495020452d45534148502052455454454c204d554d41423b3746393631,
0x3b3b3b3b3b4e3b3b3b3b3b4c3b303b6f4c3b514f4c20452d45534148502052455454454c204d554d41423b3846393631,
0x3b3b3b3b3b4e3b3b3b3b3b4c3b303b6f4c3b4f4b20452d45534148502052455454454c204d554d41423b3946393631,
0x3b3b3b3b3b4e3b3b3b3b3b4c3b303b6f4c3b4e454d20452d45534148502052455454454c204d554d41423b4146393631,
0x3b3b3b3b3b4e3b3b3b3b3b4c3b303b6f4c3b414d20452d45534148502052455454454c204d554d41423b4246393631,
0x3b3b3b3b3b4e3b3b3b3b3b4c3b303b6f4c3b51414d20452d45534148502052455454454c204d554d41423b4346393631,
0x3b3b3b3b3b4e3b3b3b3b3b4c3b303b6f4c3b55455420452d45534148502052455454454c204d554d41423b4446393631,
0x3b3b3b3b3b4e3b3b3b3b3b4c3b303b6f4c3b494b20452d45534148502052455454454c204d554d41423b4546393631,
0x3b3b3b3b3b4e3b3b3b3b3b4c3b303b6f4c3b4e4f4d20452d45534148502052455454454c204d554d41423b4646393631,
0x3b3b3b3b3b4e3b3b3b3b3b4c3b303b6f4c3b4e455420452d45534148502052455454454c204d554d41423b3030413631,
0x3b3b3b3b3b4e3b3b3b3b3b4c3b303b6f4c3b51414620452d45534148502052455454454c204d554d41423b3130413631,
0x3b3b3b3b3b4e3b3b3b3b3b4c3b303b6f4c3b4d4f484720452d45534148502052455454454c204d554d41423b3230413631,
0x3b3b3b3b3b4e3b3b3b3b3b4c3b303b6f4c3b414b20462d45534148502052455454454c204d554d41423b3330413631,
0x3b3b3b3b3b4e3b3b3b3b3b4c3b303b6f4c3b5520462d45534148502052455454454c204d554d41423b3430413631,
0x3b3b3b3b3b4e3b3b3b3b3b4c3b303b6f4c3b554b20462d45534148502052455454454c204d554d41423b3530413631,
0x3b3b3b3b3b4e3b3b3b3b3b4c3b303b6f4c3b454520462d45534148502052455454454c204d554d41423b3630413631,
0x3b3b3b3b3b4e3b3b3b3b3b4c3b303b6f4c3b45455220462d45534148502052455454454c204d554d41423b3730413631,
0x3b3b3b3b3b4e3b3b3b3b3b4c3b303b6f4c3b45415420462d45534148502052455454454c204d554d41423b3830413631,
0x3b3b3b3b3b4e3b3b3b3b3b4c3b303b6f4c3b49594e20462d45534148502052455454454c204d554d41423b3930413631,
0x3b3b3b3b3b4e3b3b3b3b3b4c3b303b6f4c3b414c20462d45534148502052455454454c204d554d41423b4130413631,
0x3b3b3b3b3b4e3b3b3b3b3b4c3b303b6f4c3b49495220462d45534148502052455454454c204d554d41423b4230413631,
0x3b3b3b3b3b4e3b3b3b3b3b4c3b303b6f4c3b4545495220462d45534148502052455454454c204d554d41423b4330413631,
0x3b3b3b3b3b4e3b3b3b3b3b4c3b303b6f4c3b454545454d20462d45534148502052455454454c204d554d41423b4430413631,
0x3b3b3b3b3b4e3b3b3b3b3b4c3b303b6f4c3b41415420462d45534148502052455454454c204d554d41423b4530413631,
0x3b3b3b3b3b4e3b3b3b3b3b4c3b303b6f4c3b4141444e20462d45534148502052455454454c204d554d41423b4630413631,
0x3b3b3b3b3b4e3b3b3b3b3b4c3b303b6f4c3b4d45414a4e20462d45534148502052455454454c204d554d41423b3031413631,
0x3b3b3b3b3b4e3b3b3b3b3b4c3b303b6f4c3b4d20462d45534148502052455454454c204d554d41423b3131413631,
0x3b3b3b3b3b4e3b3b3b3b3b4c3b303b6f4c3b55555320462d45534148502052455454454c204d554d41423b3231413631,
0x3b3b3b3b3b4e3b3b3b3b3b4c3b303b6f4c3b4949485320462d45534148502052455454454c204d554d41423b3331413631,
0x3b3b3b3b3b4e3b3b3b3b3b4c3b303b6f4c3b495320462d45534148502052455454454c204d554d41423b3431413631,
0x3b3b3b3b3b4e3b3b3b3b3b4c3b303b6f4c3b5855455320462d45534148502052455454454c204d554d41423b3531413631,
0x3b3b3b3b3b4e3b3b3b3b3b4c3b303b6f4c3b4545594b20462d45534148502052455454454c204d554d41423b3631413631,
0x3b3b3b3b3b4e3b3b3b3b3b4c3b303b6f4c3b54454b20462d45534148502052455454454c204d554d41423b3731413631,
0x3b3b3b3b3b4e3b3b3b3b3b4c3b303b6f4c3b4541554e20462d45534148502052455454454c204d554d41423b3831413631,
0x3b3b3b3b3b4e3b3b3b3b3b4c3b303b6f4c3b554e20462d45534148502052455454454c204d554d41423b3931413631,
0x3b3b3b3b3b4e3b3b3b3b3b4c3b303b6f4c3b4541554a4e20462d45534148502052455454454c204d554d41423b4131413631,
0x3b3b3b3b3b4e3b3b3b3b3b4c3b303b6f4c3b514f5920462d45534148502052455454454c204d554d41423b4231413631,
0x3b3b3b3b3b4e3b3b3b3b3b4c3b303b6f4c3b55485320462d45534148502052455454454c204d554d41423b4331413631,
0x3b3b3b3b3b4e3b3b3b3b3b4c3b303b6f4c3b415920462d45534148502052455454454c204d554d41423b4431413631,
0x3b3b3b3b3b4e3b3b3b3b3b4c3b303b6f4c3b4148534e20462d45534148502052455454454c204d554d41423b4531413631,
0x3b3b3b3b3b4e3b3b3b3b3b4c3b303b6f4c3b5855455020462d45534148502052455454454c204d554d41423b4631413631,
0x3b3b3b3b3b4e3b3b3b3b3b4c3b303b6f4c3b4545544e20462d45534148502052455454454c204d554d41423b3032413631,
0x3b3b3b3b3b4e3b3b3b3b3b4c3b303b6f4c3b45555720462d45534148502052455454454c204d554d41423b3132413631,
0x3b3b3b3b3b4e3b3b3b3b3b4c3b303b6f4c3b45455020462d45534148502052455454454c204d554d41423b3232413631,
0x3b3b3b3b3b4e3b3b3b3b3b4c3b303b6f4c3b555220462d45534148502052455454454c204d554d41423b3332413631,
0x3b3b3b3b3b4e3b3b3b3b3b4c3b303b6f4c3b494e20462d45534148502052455454454c204d554d41423b3432413631,
0x3b3b3b3b3b4e3b3b3b3b3b4c3b303b6f4c3b5855455220462d45534148502052455454454c204d554d41423b3532413631,
0x3b3b3b3b3b4e3b3b3b3b3b4c3b303b6f4c3b4e454b20462d45534148502052455454454c204d554d41423b3632413631,
0x3b3b3b3b3b4e3b3b3b3b3b4c3b303b6f4c3b4e4541574b474e20462d45534148502052455454454c204d554d41423b3732413631,
0x3b3b3b3b3b4e3b3b3b3b3b4c3b303b6f4c3b4147474e20462d45534148502052455454454c204d554d41423b3832413631,
0x3b3b3b3b3b4e3b3b3b3b3b4c3b303b6f4c3b4f485320462d45534148502052455454454c204d554d41423b3932413631,
0x3b3b3b3b3b4e3b3b3b3b3b4c3b303b6f4c3b4541555020462d45534148502052455454454c204d554d41423b4132413631,
0x3b3b3b3b3b4e3b3b3b3b3b4c3b303b6f4c3b4d4f4620462d45534148502052455454454c204d554d41423b4232413631,
0x3b3b3b3b3b4e3b3b3b3b3b4c3b303b6f4c3b415720462d45534148502052455454454c204d554d41423b4332413631,
0x3b3b3b3b3b4e3b3b3b3b3b4c3b303b6f4c3b494c20462d45534148502052455454454c204d554d41423b4432413631,
0x3b3b3b3b3b4e3b3b3b3b3b4c3b303b6f4c3b514f4c20462d45534148502052455454454c204d554d41423b4532413631,
0x3b3b3b3b3b4e3b3b3b3b3b4c3b303b6f4c3b4f4b20462d45534148502052455454454c204d554d41423b4632413631,
0x3b3b3b3b3b4e3b3b3b3b3b4c3b303b6f4c3b4e45424d20462d45534148502052455454454c204d554d41423b3033413631,
0x3b3b3b3b3b4e3b3b3b3b3b4c3b303b6f4c3b4e455220462d45534148502052455454454c204d554d41423b3133413631,
0x3b3b3b3b3b4e3b3b3b3b3b4c3b303b6f4c3b414d20462d45534148502052455454454c204d554d41423b3233413631,
0x3b3b3b3b3b4e3b3b3b3b3b4c3b303b6f4c3b4f4d20462d45534148502052455454454c204d554d41423b3333413631,
0x3b3b3b3b3b4e3b3b3b3b3b4c3b303b6f4c3b4141424d20462d45534148502052455454454c204d554d41423b3433413631,
0x3b3b3b3b3b4e3b3b3b3b3b4c3b303b6f4c3b54455420462d45534148502052455454454c204d554d41423b3533413631,
0x3b3b3b3b3b4e3b3b3b3b3b4c3b303b6f4c3b41504b20462d45534148502052455454454c204d554d41423b3633413631,
0x3b3b3b3b3b4e3b3b3b3b3b4c3b303b6f4c3b41424d415320462d45534148502052455454454c204d554d41423b3733413631,
0x3b3b3b3b3b4e3b3b3b3b3b4c3b303b6f4c3b5145555620462d45534148502052455454454c204d554d41423b3833413631,
0x3b3b3b3b3b4e3b3b3b3b3b4c3b303b6f4c3b41542052455454454c204f524d3b3034413631,
0x3b3b3b3b3b4e3b3b3b3b3b4c3b303b6f4c3b49474e2052455454454c204f524d3b3134413631,
0x3b3b3b3b3b4e3b3b3b3b3b4c3b303b6f4c3b4f592052455454454c204f524d3b3234413631,
0x3b3b3b3b3b4e3b3b3b3b3b4c3b303b6f4c3b4d494d2052455454454c204f524d3b3334413631,
0x3b3b3b3b3b4e3b3b3b3b3b4c3b303b6f4c3b41422052455454454c204f524d3b3434413631,
0x3b3b3b3b3b4e3b3b3b3b3b4c3b303b6f4c3b41442052455454454c204f524d3b3534413631,
0x3b3b3b3b3b4e3b3b3b3b3b4c3b303b6f4c3b412052455454454c204f524d3b3634413631,
0x3b3b3b3b3b4e3b3b3b3b3b4c3b303b6f4c3b4948502052455454454c204f524d3b3734413631,
0x3b3b3b3b3b4e3b3b3b3b3b4c3b303b6f4c3b4941484b2052455454454c204f524d3b3834413631,
0x3b3b3b3b3b4e3b3b3b3b3b4c3b303b6f4c3b4f41482052455454454c204f524d3b3934413631,
0x3b3b3b3b3b4e3b3b3b3b3b4c3b303b6f4c3b4941442052455454454c204f524d3b4134413631,
0x3b3b3b3b3b4e3b3b3b3b3b4c3b303b6f4c3b5548432052455454454c204f524d3b4234413631,
0x3b3b3b3b3b4e3b3b3b3b3b4c3b303b6f4c3b454141454b2052455454454c204f524d3b4334413631,
0x3b3b3b3b3b4e3b3b3b3b3b4c3b303b6f4c3b4c4f2052455454454c204f524d3b4434413631,
0x3b3b3b3b3b4e3b3b3b3b3b4c3b303b6f4c3b4d45414d2052455454454c204f524d3b4534413631,
0x3b3b3b3b3b4e3b3b3b3b3b4c3b303b6f4c3b4e494e2052455454454c204f524d3b4634413631,
0x3b3b3b3b3b4e3b3b3b3b3b4c3b303b6f4c3b41502052455454454c204f524d3b3035413631,
0x3b3b3b3b3b4e3b3b3b3b3b4c3b303b6f4c3b4f4f2052455454454c204f524d3b3135413631,
0x3b3b3b3b3b4e3b3b3b3b3b4c3b303b6f4c3b4f2052455454454c204f524d3b3235413631,
0x3b3b3b3b3b4e3b3b3b3b3b4c3b303b6f4c3b4f522052455454454c204f524d3b3335413631,
0x3b3b3b3b3b4e3b3b3b3b3b4c3b303b6f4c3b4948532052455454454c204f524d3b3435413631,
0x3b3b3b3b3b4e3b3b3b3b3b4c3b303b6f4c3b414548542052455454454c204f524d3b3535413631,
0x3b3b3b3b3b4e3b3b3b3b3b4c3b303b6f4c3b41452052455454454c204f524d3b3635413631,
0x3b3b3b3b3b4e3b3b3b3b3b4c3b303b6f4c3b41572052455454454c204f524d3b3735413631,
0x3b3b3b3b3b4e3b3b3b3b3b4c3b303b6f4c3b452052455454454c204f524d3b3835413631,
0x3b3b3b3b3b4e3b3b3b3b3b4c3b303b6f4c3b4f4b2052455454454c204f524d3b3935413631,
0x3b3b3b3b3b4e3b3b3b3b3b4c3b303b6f4c3b4e414c2052455454454c204f524d3b4135413631,
0x3b3b3b3b3b4e3b3b3b3b3b4c3b303b6f4c3b414c2052455454454c204f524d3b4235413631,
0x3b3b3b3b3b4e3b3b3b3b3b4c3b303b6f4c3b4941482052455454454c204f524d3b4335413631,
0x3b3b3b3b3b4e3b3b3b3b3b4c3b303b6f4c3b49522052455454454c204f524d3b4435413631,
0x3b3b3b3b3b4e3b3b3b3b3b4c3b303b6f4c3b4b45542052455454454c204f524d3b4535413631,
0x3b3b3b3b3b4e3b303b303b303b3b4c3b303b644e3b4f52455a205449474944204f524d3b3036413631,
0x3b3b3b3b3b4e3b313b313b313b3b4c3b303b644e3b454e4f205449474944204f524d3b3136413631,
0x3b3b3b3b3b4e3b323b323b323b3b4c3b303b644e3b4f5754205449474944204f524d3b3236413631,
0x3b3b3b3b3b4e3b333b333b333b3b4c3b303b644e3b4545524854205449474944204f524d3b3336413631,
0x3b3b3b3b3b4e3b343b343b343b3b4c3b303b644e3b52554f46205449474944204f524d3b3436413631,
0x3b3b3b3b3b4e3b353b353b353b3b4c3b303b644e3b45564946205449474944204f524d3b3536413631,
0x3b3b3b3b3b4e3b363b363b363b3b4c3b303b644e3b584953205449474944204f524d3b3636413631,
0x3b3b3b3b3b4e3b373b373b373b3b4c3b303b644e3b4e45564553205449474944204f524d3b3736413631,
0x3b3b3b3b3b4e3b383b383b383b3b4c3b303b644e3b5448474945205449474944204f524d3b3836413631,
0x3b3b3b3b3b4e3b393b393b393b3b4c3b303b644e3b454e494e205449474944204f524d3b3936413631,
0x3b3b3b3b3b4e3b3b3b3b3b4c3b303b6f503b41444e4144204f524d3b4536413631,
0x3b3b3b3b3b4e3b3b3b3b3b4c3b303b6f503b41444e414420454c42554f44204f524d3b4636413631,
0x3b3b3b3b3b4e3b3b3b3b3b4c3b303b6f4c3b494e4e452052455454454c204841562041535341423b3044413631,
0x3b3b3b3b3b4e3b3b3b3b3b4c3b303b6f4c3b414b2052455454454c204841562041535341423b3144413631,
0x3b3b3b3b3b4e3b3b3b3b3b4c3b303b6f4c3b45532052455454454c204841562041535341423b3244413631,
0x3b3b3b3b3b4e3b3b3b3b3b4c3b303b6f4c3b41462052455454454c204841562041535341423b3344413631,
0x3b3b3b3b3b4e3b3b3b3b3b4c3b303b6f4c3b45424d2052455454454c204841562041535341423b3444413631,
0x3b3b3b3b3b4e3b3b3b3b3b4c3b303b6f4c3b4549592052455454454c204841562041535341423b3544413631,
0x3b3b3b3b3b4e3b3b3b3b3b4c3b303b6f4c3b4841472052455454454c204841562041535341423b3644413631,
0x3b3b3b3b3b4e3b3b3b3b3b4c3b303b6f4c3b494948442052455454454c204841562041535341423b3744413631,
0x3b3b3b3b3b4e3b3b3b3b3b4c3b303b6f4c3b4841504b2052455454454c204841562041535341423b3844413631,
0x3b3b3b3b3b4e3b3b3b3b3b4c3b303b6f4c3b4f4a2052455454454c204841562041535341423b3944413631,
0x3b3b3b3b3b4e3b3b3b3b3b4c3b303b6f4c3b484157482052455454454c204841562041535341423b4144413631,
0x3b3b3b3b3b4e3b3b3b3b3b4c3b303b6f4c3b41572052455454454c204841562041535341423b4244413631,
0x3b3b3b3b3b4e3b3b3b3b3b4c3b303b6f4c3b4f5a2052455454454c204841562041535341423b4344413631,
0x3b3b3b3b3b4e3b3b3b3b3b4c3b303b6f4c3b5542472052455454454c204841562041535341423b4444413631,
0x3b3b3b3b3b4e3b3b3b3b3b4c3b303b6f4c3b4f442052455454454c204841562041535341423b4544413631,
0x3b3b3b3b3b4e3b3b3b3b3b4c3b303b6f4c3b45432052455454454c204841562041535341423b4644413631]

/-- src/u5e/props/UnicodeData.txt lines 23809-24064. -/
def rawUcd93 : List Nat := [
0x3b3b3b3b3b4e3b3b3b3b3b4c3b303b6f4c3b5557552052455454454c204841562041535341423b3045413631,
0x3b3b3b3b3b4e3b3b3b3b3b4c3b303b6f4c3b4f542052455454454c204841562041535341423b3145413631,
0x3b3b3b3b3b4e3b3b3b3b3b4c3b303b6f4c3b41422052455454454c204841562041535341423b3245413631,
0x3b3b3b3b3b4e3b3b3b3b3b4c3b303b6f4c3b55562052455454454c204841562041535341423b3345413631,
0x3b3b3b3b3b4e3b3b3b3b3b4c3b303b6f4c3b4e4945592052455454454c204841562041535341423b3445413631,
0x3b3b3b3b3b4e3b3b3b3b3b4c3b303b6f4c3b41502052455454454c204841562041535341423b3545413631,
0x3b3b3b3b3b4e3b3b3b3b3b4c3b303b6f4c3b41444441572052455454454c204841562041535341423b3645413631,
0x3b3b3b3b3b4e3b3b3b3b3b4c3b303b6f4c3b412052455454454c204841562041535341423b3745413631,
0x3b3b3b3b3b4e3b3b3b3b3b4c3b303b6f4c3b4f2052455454454c204841562041535341423b3845413631,
0x3b3b3b3b3b4e3b3b3b3b3b4c3b303b6f4c3b4f4f2052455454454c204841562041535341423b3945413631,
0x3b3b3b3b3b4e3b3b3b3b3b4c3b303b6f4c3b552052455454454c204841562041535341423b4145413631,
0x3b3b3b3b3b4e3b3b3b3b3b4c3b303b6f4c3b45452052455454454c204841562041535341423b4245413631,
0x3b3b3b3b3b4e3b3b3b3b3b4c3b303b6f4c3b452052455454454c204841562041535341423b4345413631,
0x3b3b3b3b3b4e3b3b3b3b3b4c3b303b6f4c3b492052455454454c204841562041535341423b4445413631,
0x3b3b3b3b3b4e3b3b3b3b3b4d534e3b313b6e4d3b454e4f54204847494820474e494e49424d4f43204841562041535341423b3046413631,
0x3b3b3b3b3b4e3b3b3b3b3b4d534e3b313b6e4d3b454e4f5420574f4c20474e494e49424d4f43204841562041535341423b3146413631,
0x3b3b3b3b3b4e3b3b3b3b3b4d534e3b313b6e4d3b454e4f542044494d20474e494e49424d4f43204841562041535341423b3246413631,
0x3b3b3b3b3b4e3b3b3b3b3b4d534e3b313b6e4d3b454e4f542044494d2d574f4c20474e494e49424d4f43204841562041535341423b3346413631,
0x3b3b3b3b3b4e3b3b3b3b3b4d534e3b313b6e4d3b454e4f5420574f4c2d4847494820474e494e49424d4f43204841562041535341423b3446413631,
0x3b3b3b3b3b4e3b3b3b3b3b4c3b303b6f503b504f5453204c4c5546204841562041535341423b3546413631,
0x3b3b3b3b3b4e3b3b3b3b3b4c3b303b6f4c3b4245454b204c45574f5620474e4f4d48204857414841503b3030423631,
0x3b3b3b3b3b4e3b3b3b3b3b4c3b303b6f4c3b5645454b204c45574f5620474e4f4d48204857414841503b3130423631,
0x3b3b3b3b3b4e3b3b3b3b3b4c3b303b6f4c3b42494b204c45574f5620474e4f4d48204857414841503b3230423631,
0x3b3b3b3b3b4e3b3b3b3b3b4c3b303b6f4c3b56494b204c45574f5620474e4f4d48204857414841503b3330423631,
0x3b3b3b3b3b4e3b3b3b3b3b4c3b303b6f4c3b4255414b204c45574f5620474e4f4d48204857414841503b3430423631,
0x3b3b3b3b3b4e3b3b3b3b3b4c3b303b6f4c3b5655414b204c45574f5620474e4f4d48204857414841503b3530423631,
0x3b3b3b3b3b4e3b3b3b3b3b4c3b303b6f4c3b42554b204c45574f5620474e4f4d48204857414841503b3630423631,
0x3b3b3b3b3b4e3b3b3b3b3b4c3b303b6f4c3b56554b204c45574f5620474e4f4d48204857414841503b3730423631,
0x3b3b3b3b3b4e3b3b3b3b3b4c3b303b6f4c3b42454b204c45574f5620474e4f4d48204857414841503b3830423631,
0x3b3b3b3b3b4e3b3b3b3b3b4c3b303b6f4c3b56454b204c45574f5620474e4f4d48204857414841503b3930423631,
0x3b3b3b3b3b4e3b3b3b3b3b4c3b303b6f4c3b4249414b204c45574f5620474e4f4d48204857414841503b4130423631,
0x3b3b3b3b3b4e3b3b3b3b3b4c3b303b6f4c3b5649414b204c45574f5620474e4f4d48204857414841503b4230423631,
0x3b3b3b3b3b4e3b3b3b3b3b4c3b303b6f4c3b424f4f4b204c45574f5620474e4f4d48204857414841503b4330423631,
0x3b3b3b3b3b4e3b3b3b3b3b4c3b303b6f4c3b564f4f4b204c45574f5620474e4f4d48204857414841503b4430423631,
0x3b3b3b3b3b4e3b3b3b3b3b4c3b303b6f4c3b4257414b204c45574f5620474e4f4d48204857414841503b4530423631,
0x3b3b3b3b3b4e3b3b3b3b3b4c3b303b6f4c3b5657414b204c45574f5620474e4f4d48204857414841503b4630423631,
0x3b3b3b3b3b4e3b3b3b3b3b4c3b303b6f4c3b4241554b204c45574f5620474e4f4d48204857414841503b3031423631,
0x3b3b3b3b3b4e3b3b3b3b3b4c3b303b6f4c3b5641554b204c45574f5620474e4f4d48204857414841503b3131423631,
0x3b3b3b3b3b4e3b3b3b3b3b4c3b303b6f4c3b424f4b204c45574f5620474e4f4d48204857414841503b3231423631,
0x3b3b3b3b3b4e3b3b3b3b3b4c3b303b6f4c3b564f4b204c45574f5620474e4f4d48204857414841503b3331423631,
0x3b3b3b3b3b4e3b3b3b3b3b4c3b303b6f4c3b4241494b204c45574f5620474e4f4d48204857414841503b3431423631,
0x3b3b3b3b3b4e3b3b3b3b3b4c3b303b6f4c3b5641494b204c45574f5620474e4f4d48204857414841503b3531423631,
0x3b3b3b3b3b4e3b3b3b3b3b4c3b303b6f4c3b42414b204c45574f5620474e4f4d48204857414841503b3631423631,
0x3b3b3b3b3b4e3b3b3b3b3b4c3b303b6f4c3b56414b204c45574f5620474e4f4d48204857414841503b3731423631,
0x3b3b3b3b3b4e3b3b3b3b3b4c3b303b6f4c3b42574b204c45574f5620474e4f4d48204857414841503b3831423631,
0x3b3b3b3b3b4e3b3b3b3b3b4c3b303b6f4c3b56574b204c45574f5620474e4f4d48204857414841503b3931423631,
0x3b3b3b3b3b4e3b3b3b3b3b4c3b303b6f4c3b4241414b204c45574f5620474e4f4d48204857414841503b4131423631,
0x3b3b3b3b3b4e3b3b3b3b3b4c3b303b6f4c3b5641414b204c45574f5620474e4f4d48204857414841503b4231423631,
0x3b3b3b3b3b4e3b3b3b3b3b4c3b303b6f4c3b55415620544e414e4f534e4f4320474e4f4d48204857414841503b4331423631,
0x3b3b3b3b3b4e3b3b3b3b3b4c3b303b6f4c3b554153544e20544e414e4f534e4f4320474e4f4d48204857414841503b4431423631,
0x3b3b3b3b3b4e3b3b3b3b3b4c3b303b6f4c3b55414c20544e414e4f534e4f4320474e4f4d48204857414841503b4531423631,
0x3b3b3b3b3b4e3b3b3b3b3b4c3b303b6f4c3b55414820544e414e4f534e4f4320474e4f4d48204857414841503b4631423631,
0x3b3b3b3b3b4e3b3b3b3b3b4c3b303b6f4c3b55414c4e20544e414e4f534e4f4320474e4f4d48204857414841503b3032423631,
0x3b3b3b3b3b4e3b3b3b3b3b4c3b303b6f4c3b55415220544e414e4f534e4f4320474e4f4d48204857414841503b3132423631,
0x3b3b3b3b3b4e3b3b3b3b3b4c3b303b6f4c3b55414b4e20544e414e4f534e4f4320474e4f4d48204857414841503b3232423631,
0x3b3b3b3b3b4e3b3b3b3b3b4c3b303b6f4c3b5541485120544e414e4f534e4f4320474e4f4d48204857414841503b3332423631,
0x3b3b3b3b3b4e3b3b3b3b3b4c3b303b6f4c3b55415920544e414e4f534e4f4320474e4f4d48204857414841503b3432423631,
0x3b3b3b3b3b4e3b3b3b3b3b4c3b303b6f4c3b55414c4820544e414e4f534e4f4320474e4f4d48204857414841503b3532423631,
0x3b3b3b3b3b4e3b3b3b3b3b4c3b303b6f4c3b55414d20544e414e4f534e4f4320474e4f4d48204857414841503b3632423631,
0x3b3b3b3b3b4e3b3b3b3b3b4c3b303b6f4c3b5541484320544e414e4f534e4f4320474e4f4d48204857414841503b3732423631,
0x3b3b3b3b3b4e3b3b3b3b3b4c3b303b6f4c3b554148434e20544e414e4f534e4f4320474e4f4d48204857414841503b3832423631,
0x3b3b3b3b3b4e3b3b3b3b3b4c3b303b6f4c3b55414e4820544e414e4f534e4f4320474e4f4d48204857414841503b3932423631,
0x3b3b3b3b3b4e3b3b3b3b3b4c3b303b6f4c3b5541484c5020544e414e4f534e4f4320474e4f4d48204857414841503b4132423631,
0x3b3b3b3b3b4e3b3b3b3b3b4c3b303b6f4c3b554148544e20544e414e4f534e4f4320474e4f4d48204857414841503b4232423631,
0x3b3b3b3b3b4e3b3b3b3b3b4c3b303b6f4c3b55414e20544e414e4f534e4f4320474e4f4d48204857414841503b4332423631,
0x3b3b3b3b3b4e3b3b3b3b3b4c3b303b6f4c3b554120544e414e4f534e4f4320474e4f4d48204857414841503b4432423631,
0x3b3b3b3b3b4e3b3b3b3b3b4c3b303b6f4c3b55415820544e414e4f534e4f4320474e4f4d48204857414841503b4532423631,
0x3b3b3b3b3b4e3b3b3b3b3b4c3b303b6f4c3b55414320544e414e4f534e4f4320474e4f4d48204857414841503b4632423631,
0x3b3b3b3b3b4e3b3b3b3b3b4d534e3b3033323b6e4d3b425554204d4943204b52414d20474e4f4d48204857414841503b3033423631,
0x3b3b3b3b3b4e3b3b3b3b3b4d534e3b3033323b6e4d3b4f53204d4943204b52414d20474e4f4d48204857414841503b3133423631,
0x3b3b3b3b3b4e3b3b3b3b3b4d534e3b3033323b6e4d3b53454b204d4943204b52414d20474e4f4d48204857414841503b3233423631,
0x3b3b3b3b3b4e3b3b3b3b3b4d534e3b3033323b6e4d3b5641484b204d4943204b52414d20474e4f4d48204857414841503b3333423631,
0x3b3b3b3b3b4e3b3b3b3b3b4d534e3b3033323b6e4d3b4d415553204d4943204b52414d20474e4f4d48204857414841503b3433423631,
0x3b3b3b3b3b4e3b3b3b3b3b4d534e3b3033323b6e4d3b4d4f48204d4943204b52414d20474e4f4d48204857414841503b3533423631,
0x3b3b3b3b3b4e3b3b3b3b3b4d534e3b3033323b6e4d3b4d554154204d4943204b52414d20474e4f4d48204857414841503b3633423631,
0x3b3b3b3b3b4e3b3b3b3b3b4c3b303b6f503b4d4f485420534f56204e47495320474e4f4d48204857414841503b3733423631,
0x3b3b3b3b3b4e3b3b3b3b3b4c3b303b6f503b4245454320424148535420534f56204e47495320474e4f4d48204857414841503b3833423631,
0x3b3b3b3b3b4e3b3b3b3b3b4c3b303b6f503b4d45454843204d4943204e47495320474e4f4d48204857414841503b3933423631,
0x3b3b3b3b3b4e3b3b3b3b3b4c3b303b6f503b424149485420534f56204e47495320474e4f4d48204857414841503b4133423631,
0x3b3b3b3b3b4e3b3b3b3b3b4c3b303b6f503b4d45454620534f56204e47495320474e4f4d48204857414841503b4233423631,
0x3b3b3b3b3b4e3b3b3b3b3b4c3b303b6f533b564958544e204d45455958204e47495320474e4f4d48204857414841503b4333423631,
0x3b3b3b3b3b4e3b3b3b3b3b4c3b303b6f533b4f4852204d45455958204e47495320474e4f4d48204857414841503b4433423631,
0x3b3b3b3b3b4e3b3b3b3b3b4c3b303b6f533b564f54204d45455958204e47495320474e4f4d48204857414841503b4533423631,
0x3b3b3b3b3b4e3b3b3b3b3b4c3b303b6f533b42494146204d45455958204e47495320474e4f4d48204857414841503b4633423631,
0x3b3b3b3b3b4e3b3b3b3b3b4c3b303b6d4c3b5645455320534f56204e47495320474e4f4d48204857414841503b3034423631,
0x3b3b3b3b3b4e3b3b3b3b3b4c3b303b6d4c3b42415553204a45454d204e47495320474e4f4d48204857414841503b3134423631,
0x3b3b3b3b3b4e3b3b3b3b3b4c3b303b6d4c3b4155524e20534f56204e47495320474e4f4d48204857414841503b3234423631,
0x3b3b3b3b3b4e3b3b3b3b3b4c3b303b6d4c3b4d4159204249204e47495320474e4f4d48204857414841503b3334423631,
0x3b3b3b3b3b4e3b3b3b3b3b4c3b303b6f503b53554158204e47495320474e4f4d48204857414841503b3434423631,
0x3b3b3b3b3b4e3b3b3b3b3b4c3b303b6f533b474f5220564f5354204d4943204e47495320474e4f4d48204857414841503b3534423631,
0x3b3b3b3b3b4e3b303b303b303b3b4c3b303b644e3b4f52455a20544947494420474e4f4d48204857414841503b3035423631,
0x3b3b3b3b3b4e3b313b313b313b3b4c3b303b644e3b454e4f20544947494420474e4f4d48204857414841503b3135423631,
0x3b3b3b3b3b4e3b323b323b323b3b4c3b303b644e3b4f575420544947494420474e4f4d48204857414841503b3235423631,
0x3b3b3b3b3b4e3b333b333b333b3b4c3b303b644e3b454552485420544947494420474e4f4d48204857414841503b3335423631,
0x3b3b3b3b3b4e3b343b343b343b3b4c3b303b644e3b52554f4620544947494420474e4f4d48204857414841503b3435423631,
0x3b3b3b3b3b4e3b353b353b353b3b4c3b303b644e3b4556494620544947494420474e4f4d48204857414841503b3535423631,
0x3b3b3b3b3b4e3b363b363b363b3b4c3b303b644e3b58495320544947494420474e4f4d48204857414841503b3635423631,
0x3b3b3b3b3b4e3b373b373b373b3b4c3b303b644e3b4e4556455320544947494420474e4f4d48204857414841503b3735423631,
0x3b3b3b3b3b4e3b383b383b383b3b4c3b303b644e3b544847494520544947494420474e4f4d48204857414841503b3835423631,
0x3b3b3b3b3b4e3b393b393b393b3b4c3b303b644e3b454e494e20544947494420474e4f4d48204857414841503b3935423631,
0x3b3b3b3b3b4e3b30313b3b3b3b4c3b303b6f4e3b534e4554205245424d554e20474e4f4d48204857414841503b4235423631,
0x3b3b3b3b3b4e3b3030313b3b3b3b4c3b303b6f4e3b53444552444e5548205245424d554e20474e4f4d48204857414841503b4335423631,
0x3b3b3b3b3b4e3b30303030313b3b3b3b4c3b303b6f4e3b53444e4153554f4854204e4554205245424d554e20474e4f4d48204857414841503b4435423631,
0x3b3b3b3b3b4e3b303030303030313b3b3b3b4c3b303b6f4e3b534e4f494c4c494d205245424d554e20474e4f4d48204857414841503b4535423631,
0x3b3b3b3b3b4e3b3030303030303030313b3b3b3b4c3b303b6f4e3b534e4f494c4c494d20444552444e5548205245424d554e20474e4f4d48204857414841503b4635423631,
0x3b3b3b3b3b4e3b30303030303030303030313b3b3b3b4c3b303b6f4e3b534e4f494c4c4942204e4554205245424d554e20474e4f4d48204857414841503b3036423631,
0x3b3b3b3b3b4e3b303030303030303030303030313b3b3b3b4c3b303b6f4e3b534e4f494c4c495254205245424d554e20474e4f4d48204857414841503b3136423631,
0x3b3b3b3b3b4e3b3b3b3b3b4c3b303b6f4c3b42554c20534f56204e47495320474e4f4d48204857414841503b3336423631,
0x3b3b3b3b3b4e3b3b3b3b3b4c3b303b6f4c3b4f4f5958204e47495320474e4f4d48204857414841503b3436423631,
0x3b3b3b3b3b4e3b3b3b3b3b4c3b303b6f4c3b494c48204e47495320474e4f4d48204857414841503b3536423631,
0x3b3b3b3b3b4e3b3b3b3b3b4c3b303b6f4c3b494c482045474154532d4452494854204e47495320474e4f4d48204857414841503b3636423631,
0x3b3b3b3b3b4e3b3b3b3b3b4c3b303b6f4c3b4a414854204a575a204e47495320474e4f4d48204857414841503b3736423631,
0x3b3b3b3b3b4e3b3b3b3b3b4c3b303b6f4c3b42554e48204e47495320474e4f4d48204857414841503b3836423631,
0x3b3b3b3b3b4e3b3b3b3b3b4c3b303b6f4c3b4749514e204e47495320474e4f4d48204857414841503b3936423631,
0x3b3b3b3b3b4e3b3b3b3b3b4c3b303b6f4c3b42414958204e47495320474e4f4d48204857414841503b4136423631,
0x3b3b3b3b3b4e3b3b3b3b3b4c3b303b6f4c3b4a55544e204e47495320474e4f4d48204857414841503b4236423631,
0x3b3b3b3b3b4e3b3b3b3b3b4c3b303b6f4c3b5641204e47495320474e4f4d48204857414841503b4336423631,
0x3b3b3b3b3b4e3b3b3b3b3b4c3b303b6f4c3b56454543204a4545485854204e47495320474e4f4d48204857414841503b4436423631,
0x3b3b3b3b3b4e3b3b3b3b3b4c3b303b6f4c3b4245455354204a45454d204e47495320474e4f4d48204857414841503b4536423631,
0x3b3b3b3b3b4e3b3b3b3b3b4c3b303b6f4c3b554154204e47495320474e4f4d48204857414841503b4636423631,
0x3b3b3b3b3b4e3b3b3b3b3b4c3b303b6f4c3b534f4c204e47495320474e4f4d48204857414841503b3037423631,
0x3b3b3b3b3b4e3b3b3b3b3b4c3b303b6f4c3b53554d204e47495320474e4f4d48204857414841503b3137423631,
0x3b3b3b3b3b4e3b3b3b3b3b4c3b303b6f4c3b474f544e20474f544e2053554c2053494148204d4943204e47495320474e4f4d48204857414841503b3237423631,
0x3b3b3b3b3b4e3b3b3b3b3b4c3b303b6f4c3b4a4f4f485354204d415543204d4943204e47495320474e4f4d48204857414841503b3337423631,
0x3b3b3b3b3b4e3b3b3b3b3b4c3b303b6f4c3b56575854204d4943204e47495320474e4f4d48204857414841503b3437423631,
0x3b3b3b3b3b4e3b3b3b3b3b4c3b303b6f4c3b565748432056575854204d4943204e47495320474e4f4d48204857414841503b3537423631,
0x3b3b3b3b3b4e3b3b3b3b3b4c3b303b6f4c3b4257414420425550204d4943204e47495320474e4f4d48204857414841503b3637423631,
0x3b3b3b3b3b4e3b3b3b3b3b4c3b303b6f4c3b534f54205345524e204d4943204e47495320474e4f4d48204857414841503b3737423631,
0x3b3b3b3b3b4e3b3b3b3b3b4c3b303b6f4c3b4a4545485354204e474953204e414c4320474e4f4d48204857414841503b4437423631,
0x3b3b3b3b3b4e3b3b3b3b3b4c3b303b6f4c3b47454559204e474953204e414c4320474e4f4d48204857414841503b4537423631,
0x3b3b3b3b3b4e3b3b3b3b3b4c3b303b6f4c3b53494c204e474953204e414c4320474e4f4d48204857414841503b4637423631,
0x3b3b3b3b3b4e3b3b3b3b3b4c3b303b6f4c3b4a55414c204e474953204e414c4320474e4f4d48204857414841503b3038423631,
0x3b3b3b3b3b4e3b3b3b3b3b4c3b303b6f4c3b4a4f4f5958204e474953204e414c4320474e4f4d48204857414841503b3138423631,
0x3b3b3b3b3b4e3b3b3b3b3b4c3b303b6f4c3b4f4f4b204e474953204e414c4320474e4f4d48204857414841503b3238423631,
0x3b3b3b3b3b4e3b3b3b3b3b4c3b303b6f4c3b4a574148204e474953204e414c4320474e4f4d48204857414841503b3338423631,
0x3b3b3b3b3b4e3b3b3b3b3b4c3b303b6f4c3b5341554d204e474953204e414c4320474e4f4d48204857414841503b3438423631,
0x3b3b3b3b3b4e3b3b3b3b3b4c3b303b6f4c3b4a4f4854204e474953204e414c4320474e4f4d48204857414841503b3538423631,
0x3b3b3b3b3b4e3b3b3b3b3b4c3b303b6f4c3b42415354204e474953204e414c4320474e4f4d48204857414841503b3638423631,
0x3b3b3b3b3b4e3b3b3b3b3b4c3b303b6f4c3b42414850204e474953204e414c4320474e4f4d48204857414841503b3738423631,
0x3b3b3b3b3b4e3b3b3b3b3b4c3b303b6f4c3b4241484b204e474953204e414c4320474e4f4d48204857414841503b3838423631,
0x3b3b3b3b3b4e3b3b3b3b3b4c3b303b6f4c3b4d4148204e474953204e414c4320474e4f4d48204857414841503b3938423631,
0x3b3b3b3b3b4e3b3b3b3b3b4c3b303b6f4c3b4a4156204e474953204e414c4320474e4f4d48204857414841503b4138423631,
0x3b3b3b3b3b4e3b3b3b3b3b4c3b303b6f4c3b4a4146204e474953204e414c4320474e4f4d48204857414841503b4238423631,
0x3b3b3b3b3b4e3b3b3b3b3b4c3b303b6f4c3b4a4159204e474953204e414c4320474e4f4d48204857414841503b4338423631,
0x3b3b3b3b3b4e3b3b3b3b3b4c3b303b6f4c3b42575354204e474953204e414c4320474e4f4d48204857414841503b4438423631,
0x3b3b3b3b3b4e3b3b3b3b3b4c3b303b6f4c3b4d574b204e474953204e414c4320474e4f4d48204857414841503b4538423631,
0x3b3b3b3b3b4e3b3b3b3b3b4c3b303b6f4c3b4a5756204e474953204e414c4320474e4f4d48204857414841503b4638423631,
0x3b3b3b3b3b4e3b3b3b3b3b4c3b303b6f4c3b41502052455454454c204f41494d3b3030463631,
0x3b3b3b3b3b4e3b3b3b3b3b4c3b303b6f4c3b41422052455454454c204f41494d3b3130463631,
0x3b3b3b3b3b4e3b3b3b3b3b4c3b303b6f4c3b41502049592052455454454c204f41494d3b3230463631,
0x3b3b3b3b3b4e3b3b3b3b3b4c3b303b6f4c3b414c502052455454454c204f41494d3b3330463631,
0x3b3b3b3b3b4e3b3b3b3b3b4c3b303b6f4c3b414d2052455454454c204f41494d3b3430463631,
0x3b3b3b3b3b4e3b3b3b3b3b4c3b303b6f4c3b41484d2052455454454c204f41494d3b3530463631,
0x3b3b3b3b3b4e3b3b3b3b3b4c3b303b6f4c3b414d20434941484352412052455454454c204f41494d3b3630463631,
0x3b3b3b3b3b4e3b3b3b3b3b4c3b303b6f4c3b41462052455454454c204f41494d3b3730463631,
0x3b3b3b3b3b4e3b3b3b3b3b4c3b303b6f4c3b41562052455454454c204f41494d3b3830463631,
0x3b3b3b3b3b4e3b3b3b3b3b4c3b303b6f4c3b4146562052455454454c204f41494d3b3930463631,
0x3b3b3b3b3b4e3b3b3b3b3b4c3b303b6f4c3b41542052455454454c204f41494d3b4130463631,
0x3b3b3b3b3b4e3b3b3b3b3b4c3b303b6f4c3b41442052455454454c204f41494d3b4230463631,
0x3b3b3b3b3b4e3b3b3b3b3b4c3b303b6f4c3b4154542049592052455454454c204f41494d3b4330463631,
0x3b3b3b3b3b4e3b3b3b3b3b4c3b303b6f4c3b41542049592052455454454c204f41494d3b4430463631,
0x3b3b3b3b3b4e3b3b3b3b3b4c3b303b6f4c3b4154542052455454454c204f41494d3b4530463631,
0x3b3b3b3b3b4e3b3b3b3b3b4c3b303b6f4c3b4144442052455454454c204f41494d3b4630463631,
0x3b3b3b3b3b4e3b3b3b3b3b4c3b303b6f4c3b414e2052455454454c204f41494d3b3031463631,
0x3b3b3b3b3b4e3b3b3b3b3b4c3b303b6f4c3b41484e2052455454454c204f41494d3b3131463631,
0x3b3b3b3b3b4e3b3b3b3b3b4c3b303b6f4c3b414e4e2049592052455454454c204f41494d3b3231463631,
0x3b3b3b3b3b4e3b3b3b3b3b4c3b303b6f4c3b414e20434941484352412052455454454c204f41494d3b3331463631,
0x3b3b3b3b3b4e3b3b3b3b3b4c3b303b6f4c3b414e4e2052455454454c204f41494d3b3431463631,
0x3b3b3b3b3b4e3b3b3b3b3b4c3b303b6f4c3b41484e4e2052455454454c204f41494d3b3531463631,
0x3b3b3b3b3b4e3b3b3b3b3b4c3b303b6f4c3b414c2052455454454c204f41494d3b3631463631,
0x3b3b3b3b3b4e3b3b3b3b3b4c3b303b6f4c3b41594c2052455454454c204f41494d3b3731463631,
0x3b3b3b3b3b4e3b3b3b3b3b4c3b303b6f4c3b41484c2052455454454c204f41494d3b3831463631,
0x3b3b3b3b3b4e3b3b3b3b3b4c3b303b6f4c3b4159484c2052455454454c204f41494d3b3931463631,
0x3b3b3b3b3b4e3b3b3b3b3b4c3b303b6f4c3b41484c542052455454454c204f41494d3b4131463631,
0x3b3b3b3b3b4e3b3b3b3b3b4c3b303b6f4c3b41484c442052455454454c204f41494d3b4231463631,
0x3b3b3b3b3b4e3b3b3b3b3b4c3b303b6f4c3b4159484c542052455454454c204f41494d3b4331463631,
0x3b3b3b3b3b4e3b3b3b3b3b4c3b303b6f4c3b4159484c442052455454454c204f41494d3b4431463631,
0x3b3b3b3b3b4e3b3b3b3b3b4c3b303b6f4c3b414b2052455454454c204f41494d3b4531463631,
0x3b3b3b3b3b4e3b3b3b3b3b4c3b303b6f4c3b41472052455454454c204f41494d3b4631463631,
0x3b3b3b3b3b4e3b3b3b3b3b4c3b303b6f4c3b414b2049592052455454454c204f41494d3b3032463631,
0x3b3b3b3b3b4e3b3b3b3b3b4c3b303b6f4c3b41512052455454454c204f41494d3b3132463631,
0x3b3b3b3b3b4e3b3b3b3b3b4c3b303b6f4c3b4147512052455454454c204f41494d3b3232463631,
0x3b3b3b3b3b4e3b3b3b3b3b4c3b303b6f4c3b41474e2052455454454c204f41494d3b3332463631,
0x3b3b3b3b3b4e3b3b3b3b3b4c3b303b6f4c3b4148474e2052455454454c204f41494d3b3432463631,
0x3b3b3b3b3b4e3b3b3b3b3b4c3b303b6f4c3b41474e20434941484352412052455454454c204f41494d3b3532463631,
0x3b3b3b3b3b4e3b3b3b3b3b4c3b303b6f4c3b41482052455454454c204f41494d3b3632463631,
0x3b3b3b3b3b4e3b3b3b3b3b4c3b303b6f4c3b41582052455454454c204f41494d3b3732463631,
0x3b3b3b3b3b4e3b3b3b3b3b4c3b303b6f4c3b4148472052455454454c204f41494d3b3832463631,
0x3b3b3b3b3b4e3b3b3b3b3b4c3b303b6f4c3b414848472052455454454c204f41494d3b3932463631,
0x3b3b3b3b3b4e3b3b3b3b3b4c3b303b6f4c3b415353542052455454454c204f41494d3b4132463631,
0x3b3b3b3b3b4e3b3b3b3b3b4c3b303b6f4c3b415a5a442052455454454c204f41494d3b4232463631,
0x3b3b3b3b3b4e3b3b3b3b3b4c3b303b6f4c3b41594e2052455454454c204f41494d3b4332463631,
0x3b3b3b3b3b4e3b3b3b3b3b4c3b303b6f4c3b4148594e2052455454454c204f41494d3b4432463631,
0x3b3b3b3b3b4e3b3b3b3b3b4c3b303b6f4c3b414853542052455454454c204f41494d3b4532463631,
0x3b3b3b3b3b4e3b3b3b3b3b4c3b303b6f4c3b41485a442052455454454c204f41494d3b4632463631,
0x3b3b3b3b3b4e3b3b3b3b3b4c3b303b6f4c3b414853542049592052455454454c204f41494d3b3033463631,
0x3b3b3b3b3b4e3b3b3b3b3b4c3b303b6f4c3b41485a442049592052455454454c204f41494d3b3133463631,
0x3b3b3b3b3b4e3b3b3b3b3b4c3b303b6f4c3b414853542044454d524f4645522052455454454c204f41494d3b3233463631,
0x3b3b3b3b3b4e3b3b3b3b3b4c3b303b6f4c3b4148532052455454454c204f41494d3b3333463631,
0x3b3b3b3b3b4e3b3b3b3b3b4c3b303b6f4c3b4153532052455454454c204f41494d3b3433463631,
0x3b3b3b3b3b4e3b3b3b3b3b4c3b303b6f4c3b41485a2052455454454c204f41494d3b3533463631,
0x3b3b3b3b3b4e3b3b3b3b3b4c3b303b6f4c3b4148535a2052455454454c204f41494d3b3633463631,
0x3b3b3b3b3b4e3b3b3b3b3b4c3b303b6f4c3b4153542052455454454c204f41494d3b3733463631,
0x3b3b3b3b3b4e3b3b3b3b3b4c3b303b6f4c3b415a442052455454454c204f41494d3b3833463631,
0x3b3b3b3b3b4e3b3b3b3b3b4c3b303b6f4c3b4153542049592052455454454c204f41494d3b3933463631,
0x3b3b3b3b3b4e3b3b3b3b3b4c3b303b6f4c3b41532052455454454c204f41494d3b4133463631,
0x3b3b3b3b3b4e3b3b3b3b3b4c3b303b6f4c3b415a2052455454454c204f41494d3b4233463631,
0x3b3b3b3b3b4e3b3b3b3b3b4c3b303b6f4c3b41535a2052455454454c204f41494d3b4333463631,
0x3b3b3b3b3b4e3b3b3b3b3b4c3b303b6f4c3b415a5a2052455454454c204f41494d3b4433463631,
0x3b3b3b3b3b4e3b3b3b3b3b4c3b303b6f4c3b41535a5a2052455454454c204f41494d3b4533463631,
0x3b3b3b3b3b4e3b3b3b3b3b4c3b303b6f4c3b415a5a20434941484352412052455454454c204f41494d3b4633463631,
0x3b3b3b3b3b4e3b3b3b3b3b4c3b303b6f4c3b41595a5a2052455454454c204f41494d3b3034463631,
0x3b3b3b3b3b4e3b3b3b3b3b4c3b303b6f4c3b4159535a5a2052455454454c204f41494d3b3134463631,
0x3b3b3b3b3b4e3b3b3b3b3b4c3b303b6f4c3b41572052455454454c204f41494d3b3234463631,
0x3b3b3b3b3b4e3b3b3b3b3b4c3b303b6f4c3b48412052455454454c204f41494d3b3334463631,
0x3b3b3b3b3b4e3b3b3b3b3b4c3b303b6f4c3b4148482052455454454c204f41494d3b3434463631,
0x3b3b3b3b3b4e3b3b3b3b3b4c3b303b6f4c3b4e4f4954415a494c4153414e2052455454454c204f41494d3b3035463631,
0x3b3b3b3b3b4e3b3b3b3b3b4c3b303b634d3b4e4f4954415249505341204e474953204f41494d3b3135463631,
0x3b3b3b3b3b4e3b3b3b3b3b4c3b303b634d3b474e4943494f562044454d524f464552204e474953204f41494d3b3235463631,
0x3b3b3b3b3b4e3b3b3b3b3b4c3b303b634d3b4e4f49544152495053412044454d524f464552204e474953204f41494d3b3335463631,
0x3b3b3b3b3b4e3b3b3b3b3b4c3b303b634d3b41204e474953204c45574f56204f41494d3b3435463631,
0x3b3b3b3b3b4e3b3b3b3b3b4c3b303b634d3b4141204e474953204c45574f56204f41494d3b3535463631,
0x3b3b3b3b3b4e3b3b3b3b3b4c3b303b634d3b484841204e474953204c45574f56204f41494d3b3635463631,
0x3b3b3b3b3b4e3b3b3b3b3b4c3b303b634d3b4e41204e474953204c45574f56204f41494d3b3735463631,
0x3b3b3b3b3b4e3b3b3b3b3b4c3b303b634d3b474e41204e474953204c45574f56204f41494d3b3835463631,
0x3b3b3b3b3b4e3b3b3b3b3b4c3b303b634d3b4f204e474953204c45574f56204f41494d3b3935463631,
0x3b3b3b3b3b4e3b3b3b3b3b4c3b303b634d3b4f4f204e474953204c45574f56204f41494d3b4135463631,
0x3b3b3b3b3b4e3b3b3b3b3b4c3b303b634d3b4f57204e474953204c45574f56204f41494d3b4235463631,
0x3b3b3b3b3b4e3b3b3b3b3b4c3b303b634d3b57204e474953204c45574f56204f41494d3b4335463631,
0x3b3b3b3b3b4e3b3b3b3b3b4c3b303b634d3b45204e474953204c45574f56204f41494d3b4435463631,
0x3b3b3b3b3b4e3b3b3b3b3b4c3b303b634d3b4e45204e474953204c45574f56204f41494d3b4535463631,
0x3b3b3b3b3b4e3b3b3b3b3b4c3b303b634d3b474e45204e474953204c45574f56204f41494d3b4635463631,
0x3b3b3b3b3b4e3b3b3b3b3b4c3b303b634d3b59454f204e474953204c45574f56204f41494d3b3036463631,
0x3b3b3b3b3b4e3b3b3b3b3b4c3b303b634d3b49204e474953204c45574f56204f41494d3b3136463631,
0x3b3b3b3b3b4e3b3b3b3b3b4c3b303b634d3b4149204e474953204c45574f56204f41494d3b3236463631,
0x3b3b3b3b3b4e3b3b3b3b3b4c3b303b634d3b4e4149204e474953204c45574f56204f41494d3b3336463631,
0x3b3b3b3b3b4e3b3b3b3b3b4c3b303b634d3b474e4149204e474953204c45574f56204f41494d3b3436463631,
0x3b3b3b3b3b4e3b3b3b3b3b4c3b303b634d3b4f49204e474953204c45574f56204f41494d3b3536463631,
0x3b3b3b3b3b4e3b3b3b3b3b4c3b303b634d3b4549204e474953204c45574f56204f41494d3b3636463631,
0x3b3b3b3b3b4e3b3b3b3b3b4c3b303b634d3b4949204e474953204c45574f56204f41494d3b3736463631,
0x3b3b3b3b3b4e3b3b3b3b3b4c3b303b634d3b5549204e474953204c45574f56204f41494d3b3836463631,
0x3b3b3b3b3b4e3b3b3b3b3b4c3b303b634d3b474e49204e474953204c45574f56204f41494d3b3936463631,
0x3b3b3b3b3b4e3b3b3b3b3b4c3b303b634d3b55204e474953204c45574f56204f41494d3b4136463631,
0x3b3b3b3b3b4e3b3b3b3b3b4c3b303b634d3b4155204e474953204c45574f56204f41494d3b4236463631,
0x3b3b3b3b3b4e3b3b3b3b3b4c3b303b634d3b4e4155204e474953204c45574f56204f41494d3b4336463631,
0x3b3b3b3b3b4e3b3b3b3b3b4c3b303b634d3b474e4155204e474953204c45574f56204f41494d3b4436463631,
0x3b3b3b3b3b4e3b3b3b3b3b4c3b303b634d3b5555204e474953204c45574f56204f41494d3b4536463631,
0x3b3b3b3b3b4e3b3b3b3b3b4c3b303b634d3b494555204e474953204c45574f56204f41494d3b4636463631,
0x3b3b3b3b3b4e3b3b3b3b3b4c3b303b634d3b474e55204e474953204c45574f56204f41494d3b3037463631,
0x3b3b3b3b3b4e3b3b3b3b3b4c3b303b634d3b59204e474953204c45574f56204f41494d3b3137463631,
0x3b3b3b3b3b4e3b3b3b3b3b4c3b303b634d3b4959204e474953204c45574f56204f41494d3b3237463631,
0x3b3b3b3b3b4e3b3b3b3b3b4c3b303b634d3b4541204e474953204c45574f56204f41494d3b3337463631,
0x3b3b3b3b3b4e3b3b3b3b3b4c3b303b634d3b454541204e474953204c45574f56204f41494d3b3437463631,
0x3b3b3b3b3b4e3b3b3b3b3b4c3b303b634d3b525245204e474953204c45574f56204f41494d3b3537463631,
0x3b3b3b3b3b4e3b3b3b3b3b4c3b303b634d3b525245204445444e554f52204e474953204c45574f56204f41494d3b3637463631,
0x3b3b3b3b3b4e3b3b3b3b3b4c3b303b634d3b5245204e474953204c45574f56204f41494d3b3737463631]

/-- src/u5e/props/UnicodeData.txt lines 24065-24320. -/
def rawUcd94 : List Nat := [
0x3b3b3b3b3b4e3b3b3b3b3b4c3b303b634d3b5245204445444e554f52204e474953204c45574f56204f41494d3b3837463631,
0x3b3b3b3b3b4e3b3b3b3b3b4c3b303b634d3b4941204e474953204c45574f56204f41494d3b3937463631,
0x3b3b3b3b3b4e3b3b3b3b3b4c3b303b634d3b4945204e474953204c45574f56204f41494d3b4137463631,
0x3b3b3b3b3b4e3b3b3b3b3b4c3b303b634d3b5541204e474953204c45574f56204f41494d3b4237463631,
0x3b3b3b3b3b4e3b3b3b3b3b4c3b303b634d3b554f204e474953204c45574f56204f41494d3b4337463631,
0x3b3b3b3b3b4e3b3b3b3b3b4c3b303b634d3b4e204e474953204c45574f56204f41494d3b4437463631,
0x3b3b3b3b3b4e3b3b3b3b3b4c3b303b634d3b474e204e474953204c45574f56204f41494d3b4537463631,
0x3b3b3b3b3b4e3b3b3b3b3b4d534e3b303b6e4d3b544847495220454e4f54204f41494d3b4638463631,
0x3b3b3b3b3b4e3b3b3b3b3b4d534e3b303b6e4d3b544847495220504f5420454e4f54204f41494d3b3039463631,
0x3b3b3b3b3b4e3b3b3b3b3b4d534e3b303b6e4d3b45564f424120454e4f54204f41494d3b3139463631,
0x3b3b3b3b3b4e3b3b3b3b3b4d534e3b303b6e4d3b574f4c454220454e4f54204f41494d3b3239463631,
0x3b3b3b3b3b4e3b3b3b3b3b4c3b303b6d4c3b322d454e4f542052455454454c204f41494d3b3339463631,
0x3b3b3b3b3b4e3b3b3b3b3b4c3b303b6d4c3b332d454e4f542052455454454c204f41494d3b3439463631,
0x3b3b3b3b3b4e3b3b3b3b3b4c3b303b6d4c3b342d454e4f542052455454454c204f41494d3b3539463631,
0x3b3b3b3b3b4e3b3b3b3b3b4c3b303b6d4c3b352d454e4f542052455454454c204f41494d3b3639463631,
0x3b3b3b3b3b4e3b3b3b3b3b4c3b303b6d4c3b362d454e4f542052455454454c204f41494d3b3739463631,
0x3b3b3b3b3b4e3b3b3b3b3b4c3b303b6d4c3b372d454e4f542052455454454c204f41494d3b3839463631,
0x3b3b3b3b3b4e3b3b3b3b3b4c3b303b6d4c3b382d454e4f542052455454454c204f41494d3b3939463631,
0x3b3b3b3b3b4e3b3b3b3b3b4c3b303b6d4c3b312d454e4f542044454d524f4645522052455454454c204f41494d3b4139463631,
0x3b3b3b3b3b4e3b3b3b3b3b4c3b303b6d4c3b322d454e4f542044454d524f4645522052455454454c204f41494d3b4239463631,
0x3b3b3b3b3b4e3b3b3b3b3b4c3b303b6d4c3b342d454e4f542044454d524f4645522052455454454c204f41494d3b4339463631,
0x3b3b3b3b3b4e3b3b3b3b3b4c3b303b6d4c3b352d454e4f542044454d524f4645522052455454454c204f41494d3b4439463631,
0x3b3b3b3b3b4e3b3b3b3b3b4c3b303b6d4c3b362d454e4f542044454d524f4645522052455454454c204f41494d3b4539463631,
0x3b3b3b3b3b4e3b3b3b3b3b4c3b303b6d4c3b382d454e4f542044454d524f4645522052455454454c204f41494d3b4639463631,
0x3b3b3b3b3b4e3b3b3b3b3b4c3b303b6d4c3b4b52414d204e4f49544152455449205455474e41543b3045463631,
0x3b3b3b3b3b4e3b3b3b3b3b4c3b303b6f4c3b3e7473726946202c68706172676f656449207475676e61543c3b3030303731,
0x3b3b3b3b3b4e3b3b3b3b3b4c3b303b6f4c3b3e7473614c202c68706172676f656449207475676e61543c3b4345373831,
0x3b3b3b3b3b4e3b3b3b3b3b4c3b303b6f4c3b3130302d544e454e4f504d4f43205455474e41543b3030383831,
0x3b3b3b3b3b4e3b3b3b3b3b4c3b303b6f4c3b3230302d544e454e4f504d4f43205455474e41543b3130383831,
0x3b3b3b3b3b4e3b3b3b3b3b4c3b303b6f4c3b3330302d544e454e4f504d4f43205455474e41543b3230383831,
0x3b3b3b3b3b4e3b3b3b3b3b4c3b303b6f4c3b3430302d544e454e4f504d4f43205455474e41543b3330383831,
0x3b3b3b3b3b4e3b3b3b3b3b4c3b303b6f4c3b3530302d544e454e4f504d4f43205455474e41543b3430383831,
0x3b3b3b3b3b4e3b3b3b3b3b4c3b303b6f4c3b3630302d544e454e4f504d4f43205455474e41543b3530383831,
0x3b3b3b3b3b4e3b3b3b3b3b4c3b303b6f4c3b3730302d544e454e4f504d4f43205455474e41543b3630383831,
0x3b3b3b3b3b4e3b3b3b3b3b4c3b303b6f4c3b3830302d544e454e4f504d4f43205455474e41543b3730383831,
0x3b3b3b3b3b4e3b3b3b3b3b4c3b303b6f4c3b3930302d544e454e4f504d4f43205455474e41543b3830383831,
0x3b3b3b3b3b4e3b3b3b3b3b4c3b303b6f4c3b3031302d544e454e4f504d4f43205455474e41543b3930383831,
0x3b3b3b3b3b4e3b3b3b3b3b4c3b303b6f4c3b3131302d544e454e4f504d4f43205455474e41543b4130383831,
0x3b3b3b3b3b4e3b3b3b3b3b4c3b303b6f4c3b3231302d544e454e4f504d4f43205455474e41543b4230383831,
0x3b3b3b3b3b4e3b3b3b3b3b4c3b303b6f4c3b3331302d544e454e4f504d4f43205455474e41543b4330383831,
0x3b3b3b3b3b4e3b3b3b3b3b4c3b303b6f4c3b3431302d544e454e4f504d4f43205455474e41543b4430383831,
0x3b3b3b3b3b4e3b3b3b3b3b4c3b303b6f4c3b3531302d544e454e4f504d4f43205455474e41543b4530383831,
0x3b3b3b3b3b4e3b3b3b3b3b4c3b303b6f4c3b3631302d544e454e4f504d4f43205455474e41543b4630383831,
0x3b3b3b3b3b4e3b3b3b3b3b4c3b303b6f4c3b3731302d544e454e4f504d4f43205455474e41543b3031383831,
0x3b3b3b3b3b4e3b3b3b3b3b4c3b303b6f4c3b3831302d544e454e4f504d4f43205455474e41543b3131383831,
0x3b3b3b3b3b4e3b3b3b3b3b4c3b303b6f4c3b3931302d544e454e4f504d4f43205455474e41543b3231383831,
0x3b3b3b3b3b4e3b3b3b3b3b4c3b303b6f4c3b3032302d544e454e4f504d4f43205455474e41543b3331383831,
0x3b3b3b3b3b4e3b3b3b3b3b4c3b303b6f4c3b3132302d544e454e4f504d4f43205455474e41543b3431383831,
0x3b3b3b3b3b4e3b3b3b3b3b4c3b303b6f4c3b3232302d544e454e4f504d4f43205455474e41543b3531383831,
0x3b3b3b3b3b4e3b3b3b3b3b4c3b303b6f4c3b3332302d544e454e4f504d4f43205455474e41543b3631383831,
0x3b3b3b3b3b4e3b3b3b3b3b4c3b303b6f4c3b3432302d544e454e4f504d4f43205455474e41543b3731383831,
0x3b3b3b3b3b4e3b3b3b3b3b4c3b303b6f4c3b3532302d544e454e4f504d4f43205455474e41543b3831383831,
0x3b3b3b3b3b4e3b3b3b3b3b4c3b303b6f4c3b3632302d544e454e4f504d4f43205455474e41543b3931383831,
0x3b3b3b3b3b4e3b3b3b3b3b4c3b303b6f4c3b3732302d544e454e4f504d4f43205455474e41543b4131383831,
0x3b3b3b3b3b4e3b3b3b3b3b4c3b303b6f4c3b3832302d544e454e4f504d4f43205455474e41543b4231383831,
0x3b3b3b3b3b4e3b3b3b3b3b4c3b303b6f4c3b3932302d544e454e4f504d4f43205455474e41543b4331383831,
0x3b3b3b3b3b4e3b3b3b3b3b4c3b303b6f4c3b3033302d544e454e4f504d4f43205455474e41543b4431383831,
0x3b3b3b3b3b4e3b3b3b3b3b4c3b303b6f4c3b3133302d544e454e4f504d4f43205455474e41543b4531383831,
0x3b3b3b3b3b4e3b3b3b3b3b4c3b303b6f4c3b3233302d544e454e4f504d4f43205455474e41543b4631383831,
0x3b3b3b3b3b4e3b3b3b3b3b4c3b303b6f4c3b3333302d544e454e4f504d4f43205455474e41543b3032383831,
0x3b3b3b3b3b4e3b3b3b3b3b4c3b303b6f4c3b3433302d544e454e4f504d4f43205455474e41543b3132383831,
0x3b3b3b3b3b4e3b3b3b3b3b4c3b303b6f4c3b3533302d544e454e4f504d4f43205455474e41543b3232383831,
0x3b3b3b3b3b4e3b3b3b3b3b4c3b303b6f4c3b3633302d544e454e4f504d4f43205455474e41543b3332383831,
0x3b3b3b3b3b4e3b3b3b3b3b4c3b303b6f4c3b3733302d544e454e4f504d4f43205455474e41543b3432383831,
0x3b3b3b3b3b4e3b3b3b3b3b4c3b303b6f4c3b3833302d544e454e4f504d4f43205455474e41543b3532383831,
0x3b3b3b3b3b4e3b3b3b3b3b4c3b303b6f4c3b3933302d544e454e4f504d4f43205455474e41543b3632383831,
0x3b3b3b3b3b4e3b3b3b3b3b4c3b303b6f4c3b3034302d544e454e4f504d4f43205455474e41543b3732383831,
0x3b3b3b3b3b4e3b3b3b3b3b4c3b303b6f4c3b3134302d544e454e4f504d4f43205455474e41543b3832383831,
0x3b3b3b3b3b4e3b3b3b3b3b4c3b303b6f4c3b3234302d544e454e4f504d4f43205455474e41543b3932383831,
0x3b3b3b3b3b4e3b3b3b3b3b4c3b303b6f4c3b3334302d544e454e4f504d4f43205455474e41543b4132383831,
0x3b3b3b3b3b4e3b3b3b3b3b4c3b303b6f4c3b3434302d544e454e4f504d4f43205455474e41543b4232383831,
0x3b3b3b3b3b4e3b3b3b3b3b4c3b303b6f4c3b3534302d544e454e4f504d4f43205455474e41543b4332383831,
0x3b3b3b3b3b4e3b3b3b3b3b4c3b303b6f4c3b3634302d544e454e4f504d4f43205455474e41543b4432383831,
0x3b3b3b3b3b4e3b3b3b3b3b4c3b303b6f4c3b3734302d544e454e4f504d4f43205455474e41543b4532383831,
0x3b3b3b3b3b4e3b3b3b3b3b4c3b303b6f4c3b3834302d544e454e4f504d4f43205455474e41543b4632383831,
0x3b3b3b3b3b4e3b3b3b3b3b4c3b303b6f4c3b3934302d544e454e4f504d4f43205455474e41543b3033383831,
0x3b3b3b3b3b4e3b3b3b3b3b4c3b303b6f4c3b3035302d544e454e4f504d4f43205455474e41543b3133383831,
0x3b3b3b3b3b4e3b3b3b3b3b4c3b303b6f4c3b3135302d544e454e4f504d4f43205455474e41543b3233383831,
0x3b3b3b3b3b4e3b3b3b3b3b4c3b303b6f4c3b3235302d544e454e4f504d4f43205455474e41543b3333383831,
0x3b3b3b3b3b4e3b3b3b3b3b4c3b303b6f4c3b3335302d544e454e4f504d4f43205455474e41543b3433383831,
0x3b3b3b3b3b4e3b3b3b3b3b4c3b303b6f4c3b3435302d544e454e4f504d4f43205455474e41543b3533383831,
0x3b3b3b3b3b4e3b3b3b3b3b4c3b303b6f4c3b3535302d544e454e4f504d4f43205455474e41543b3633383831,
0x3b3b3b3b3b4e3b3b3b3b3b4c3b303b6f4c3b3635302d544e454e4f504d4f43205455474e41543b3733383831,
0x3b3b3b3b3b4e3b3b3b3b3b4c3b303b6f4c3b3735302d544e454e4f504d4f43205455474e41543b3833383831,
0x3b3b3b3b3b4e3b3b3b3b3b4c3b303b6f4c3b3835302d544e454e4f504d4f43205455474e41543b3933383831,
0x3b3b3b3b3b4e3b3b3b3b3b4c3b303b6f4c3b3935302d544e454e4f504d4f43205455474e41543b4133383831,
0x3b3b3b3b3b4e3b3b3b3b3b4c3b303b6f4c3b3036302d544e454e4f504d4f43205455474e41543b4233383831,
0x3b3b3b3b3b4e3b3b3b3b3b4c3b303b6f4c3b3136302d544e454e4f504d4f43205455474e41543b4333383831,
0x3b3b3b3b3b4e3b3b3b3b3b4c3b303b6f4c3b3236302d544e454e4f504d4f43205455474e41543b4433383831,
0x3b3b3b3b3b4e3b3b3b3b3b4c3b303b6f4c3b3336302d544e454e4f504d4f43205455474e41543b4533383831,
0x3b3b3b3b3b4e3b3b3b3b3b4c3b303b6f4c3b3436302d544e454e4f504d4f43205455474e41543b4633383831,
0x3b3b3b3b3b4e3b3b3b3b3b4c3b303b6f4c3b3536302d544e454e4f504d4f43205455474e41543b3034383831,
0x3b3b3b3b3b4e3b3b3b3b3b4c3b303b6f4c3b3636302d544e454e4f504d4f43205455474e41543b3134383831,
0x3b3b3b3b3b4e3b3b3b3b3b4c3b303b6f4c3b3736302d544e454e4f504d4f43205455474e41543b3234383831,
0x3b3b3b3b3b4e3b3b3b3b3b4c3b303b6f4c3b3836302d544e454e4f504d4f43205455474e41543b3334383831,
0x3b3b3b3b3b4e3b3b3b3b3b4c3b303b6f4c3b3936302d544e454e4f504d4f43205455474e41543b3434383831,
0x3b3b3b3b3b4e3b3b3b3b3b4c3b303b6f4c3b3037302d544e454e4f504d4f43205455474e41543b3534383831,
0x3b3b3b3b3b4e3b3b3b3b3b4c3b303b6f4c3b3137302d544e454e4f504d4f43205455474e41543b3634383831,
0x3b3b3b3b3b4e3b3b3b3b3b4c3b303b6f4c3b3237302d544e454e4f504d4f43205455474e41543b3734383831,
0x3b3b3b3b3b4e3b3b3b3b3b4c3b303b6f4c3b3337302d544e454e4f504d4f43205455474e41543b3834383831,
0x3b3b3b3b3b4e3b3b3b3b3b4c3b303b6f4c3b3437302d544e454e4f504d4f43205455474e41543b3934383831,
0x3b3b3b3b3b4e3b3b3b3b3b4c3b303b6f4c3b3537302d544e454e4f504d4f43205455474e41543b4134383831,
0x3b3b3b3b3b4e3b3b3b3b3b4c3b303b6f4c3b3637302d544e454e4f504d4f43205455474e41543b4234383831,
0x3b3b3b3b3b4e3b3b3b3b3b4c3b303b6f4c3b3737302d544e454e4f504d4f43205455474e41543b4334383831,
0x3b3b3b3b3b4e3b3b3b3b3b4c3b303b6f4c3b3837302d544e454e4f504d4f43205455474e41543b4434383831,
0x3b3b3b3b3b4e3b3b3b3b3b4c3b303b6f4c3b3937302d544e454e4f504d4f43205455474e41543b4534383831,
0x3b3b3b3b3b4e3b3b3b3b3b4c3b303b6f4c3b3038302d544e454e4f504d4f43205455474e41543b4634383831,
0x3b3b3b3b3b4e3b3b3b3b3b4c3b303b6f4c3b3138302d544e454e4f504d4f43205455474e41543b3035383831,
0x3b3b3b3b3b4e3b3b3b3b3b4c3b303b6f4c3b3238302d544e454e4f504d4f43205455474e41543b3135383831,
0x3b3b3b3b3b4e3b3b3b3b3b4c3b303b6f4c3b3338302d544e454e4f504d4f43205455474e41543b3235383831,
0x3b3b3b3b3b4e3b3b3b3b3b4c3b303b6f4c3b3438302d544e454e4f504d4f43205455474e41543b3335383831,
0x3b3b3b3b3b4e3b3b3b3b3b4c3b303b6f4c3b3538302d544e454e4f504d4f43205455474e41543b3435383831,
0x3b3b3b3b3b4e3b3b3b3b3b4c3b303b6f4c3b3638302d544e454e4f504d4f43205455474e41543b3535383831,
0x3b3b3b3b3b4e3b3b3b3b3b4c3b303b6f4c3b3738302d544e454e4f504d4f43205455474e41543b3635383831,
0x3b3b3b3b3b4e3b3b3b3b3b4c3b303b6f4c3b3838302d544e454e4f504d4f43205455474e41543b3735383831,
0x3b3b3b3b3b4e3b3b3b3b3b4c3b303b6f4c3b3938302d544e454e4f504d4f43205455474e41543b3835383831,
0x3b3b3b3b3b4e3b3b3b3b3b4c3b303b6f4c3b3039302d544e454e4f504d4f43205455474e41543b3935383831,
0x3b3b3b3b3b4e3b3b3b3b3b4c3b303b6f4c3b3139302d544e454e4f504d4f43205455474e41543b4135383831,
0x3b3b3b3b3b4e3b3b3b3b3b4c3b303b6f4c3b3239302d544e454e4f504d4f43205455474e41543b4235383831,
0x3b3b3b3b3b4e3b3b3b3b3b4c3b303b6f4c3b3339302d544e454e4f504d4f43205455474e41543b4335383831,
0x3b3b3b3b3b4e3b3b3b3b3b4c3b303b6f4c3b3439302d544e454e4f504d4f43205455474e41543b4435383831,
0x3b3b3b3b3b4e3b3b3b3b3b4c3b303b6f4c3b3539302d544e454e4f504d4f43205455474e41543b4535383831,
0x3b3b3b3b3b4e3b3b3b3b3b4c3b303b6f4c3b3639302d544e454e4f504d4f43205455474e41543b4635383831,
0x3b3b3b3b3b4e3b3b3b3b3b4c3b303b6f4c3b3739302d544e454e4f504d4f43205455474e41543b3036383831,
0x3b3b3b3b3b4e3b3b3b3b3b4c3b303b6f4c3b3839302d544e454e4f504d4f43205455474e41543b3136383831,
0x3b3b3b3b3b4e3b3b3b3b3b4c3b303b6f4c3b3939302d544e454e4f504d4f43205455474e41543b3236383831,
0x3b3b3b3b3b4e3b3b3b3b3b4c3b303b6f4c3b3030312d544e454e4f504d4f43205455474e41543b3336383831,
0x3b3b3b3b3b4e3b3b3b3b3b4c3b303b6f4c3b3130312d544e454e4f504d4f43205455474e41543b3436383831,
0x3b3b3b3b3b4e3b3b3b3b3b4c3b303b6f4c3b3230312d544e454e4f504d4f43205455474e41543b3536383831,
0x3b3b3b3b3b4e3b3b3b3b3b4c3b303b6f4c3b3330312d544e454e4f504d4f43205455474e41543b3636383831,
0x3b3b3b3b3b4e3b3b3b3b3b4c3b303b6f4c3b3430312d544e454e4f504d4f43205455474e41543b3736383831,
0x3b3b3b3b3b4e3b3b3b3b3b4c3b303b6f4c3b3530312d544e454e4f504d4f43205455474e41543b3836383831,
0x3b3b3b3b3b4e3b3b3b3b3b4c3b303b6f4c3b3630312d544e454e4f504d4f43205455474e41543b3936383831,
0x3b3b3b3b3b4e3b3b3b3b3b4c3b303b6f4c3b3730312d544e454e4f504d4f43205455474e41543b4136383831,
0x3b3b3b3b3b4e3b3b3b3b3b4c3b303b6f4c3b3830312d544e454e4f504d4f43205455474e41543b4236383831,
0x3b3b3b3b3b4e3b3b3b3b3b4c3b303b6f4c3b3930312d544e454e4f504d4f43205455474e41543b4336383831,
0x3b3b3b3b3b4e3b3b3b3b3b4c3b303b6f4c3b3031312d544e454e4f504d4f43205455474e41543b4436383831,
0x3b3b3b3b3b4e3b3b3b3b3b4c3b303b6f4c3b3131312d544e454e4f504d4f43205455474e41543b4536383831,
0x3b3b3b3b3b4e3b3b3b3b3b4c3b303b6f4c3b3231312d544e454e4f504d4f43205455474e41543b4636383831,
0x3b3b3b3b3b4e3b3b3b3b3b4c3b303b6f4c3b3331312d544e454e4f504d4f43205455474e41543b3037383831,
0x3b3b3b3b3b4e3b3b3b3b3b4c3b303b6f4c3b3431312d544e454e4f504d4f43205455474e41543b3137383831,
0x3b3b3b3b3b4e3b3b3b3b3b4c3b303b6f4c3b3531312d544e454e4f504d4f43205455474e41543b3237383831,
0x3b3b3b3b3b4e3b3b3b3b3b4c3b303b6f4c3b3631312d544e454e4f504d4f43205455474e41543b3337383831,
0x3b3b3b3b3b4e3b3b3b3b3b4c3b303b6f4c3b3731312d544e454e4f504d4f43205455474e41543b3437383831,
0x3b3b3b3b3b4e3b3b3b3b3b4c3b303b6f4c3b3831312d544e454e4f504d4f43205455474e41543b3537383831,
0x3b3b3b3b3b4e3b3b3b3b3b4c3b303b6f4c3b3931312d544e454e4f504d4f43205455474e41543b3637383831,
0x3b3b3b3b3b4e3b3b3b3b3b4c3b303b6f4c3b3032312d544e454e4f504d4f43205455474e41543b3737383831,
0x3b3b3b3b3b4e3b3b3b3b3b4c3b303b6f4c3b3132312d544e454e4f504d4f43205455474e41543b3837383831,
0x3b3b3b3b3b4e3b3b3b3b3b4c3b303b6f4c3b3232312d544e454e4f504d4f43205455474e41543b3937383831,
0x3b3b3b3b3b4e3b3b3b3b3b4c3b303b6f4c3b3332312d544e454e4f504d4f43205455474e41543b4137383831,
0x3b3b3b3b3b4e3b3b3b3b3b4c3b303b6f4c3b3432312d544e454e4f504d4f43205455474e41543b4237383831,
0x3b3b3b3b3b4e3b3b3b3b3b4c3b303b6f4c3b3532312d544e454e4f504d4f43205455474e41543b4337383831,
0x3b3b3b3b3b4e3b3b3b3b3b4c3b303b6f4c3b3632312d544e454e4f504d4f43205455474e41543b4437383831,
0x3b3b3b3b3b4e3b3b3b3b3b4c3b303b6f4c3b3732312d544e454e4f504d4f43205455474e41543b4537383831,
0x3b3b3b3b3b4e3b3b3b3b3b4c3b303b6f4c3b3832312d544e454e4f504d4f43205455474e41543b4637383831,
0x3b3b3b3b3b4e3b3b3b3b3b4c3b303b6f4c3b3932312d544e454e4f504d4f43205455474e41543b3038383831,
0x3b3b3b3b3b4e3b3b3b3b3b4c3b303b6f4c3b3033312d544e454e4f504d4f43205455474e41543b3138383831,
0x3b3b3b3b3b4e3b3b3b3b3b4c3b303b6f4c3b3133312d544e454e4f504d4f43205455474e41543b3238383831,
0x3b3b3b3b3b4e3b3b3b3b3b4c3b303b6f4c3b3233312d544e454e4f504d4f43205455474e41543b3338383831,
0x3b3b3b3b3b4e3b3b3b3b3b4c3b303b6f4c3b3333312d544e454e4f504d4f43205455474e41543b3438383831,
0x3b3b3b3b3b4e3b3b3b3b3b4c3b303b6f4c3b3433312d544e454e4f504d4f43205455474e41543b3538383831,
0x3b3b3b3b3b4e3b3b3b3b3b4c3b303b6f4c3b3533312d544e454e4f504d4f43205455474e41543b3638383831,
0x3b3b3b3b3b4e3b3b3b3b3b4c3b303b6f4c3b3633312d544e454e4f504d4f43205455474e41543b3738383831,
0x3b3b3b3b3b4e3b3b3b3b3b4c3b303b6f4c3b3733312d544e454e4f504d4f43205455474e41543b3838383831,
0x3b3b3b3b3b4e3b3b3b3b3b4c3b303b6f4c3b3833312d544e454e4f504d4f43205455474e41543b3938383831,
0x3b3b3b3b3b4e3b3b3b3b3b4c3b303b6f4c3b3933312d544e454e4f504d4f43205455474e41543b4138383831,
0x3b3b3b3b3b4e3b3b3b3b3b4c3b303b6f4c3b3034312d544e454e4f504d4f43205455474e41543b4238383831,
0x3b3b3b3b3b4e3b3b3b3b3b4c3b303b6f4c3b3134312d544e454e4f504d4f43205455474e41543b4338383831,
0x3b3b3b3b3b4e3b3b3b3b3b4c3b303b6f4c3b3234312d544e454e4f504d4f43205455474e41543b4438383831,
0x3b3b3b3b3b4e3b3b3b3b3b4c3b303b6f4c3b3334312d544e454e4f504d4f43205455474e41543b4538383831,
0x3b3b3b3b3b4e3b3b3b3b3b4c3b303b6f4c3b3434312d544e454e4f504d4f43205455474e41543b4638383831,
0x3b3b3b3b3b4e3b3b3b3b3b4c3b303b6f4c3b3534312d544e454e4f504d4f43205455474e41543b3039383831,
0x3b3b3b3b3b4e3b3b3b3b3b4c3b303b6f4c3b3634312d544e454e4f504d4f43205455474e41543b3139383831,
0x3b3b3b3b3b4e3b3b3b3b3b4c3b303b6f4c3b3734312d544e454e4f504d4f43205455474e41543b3239383831,
0x3b3b3b3b3b4e3b3b3b3b3b4c3b303b6f4c3b3834312d544e454e4f504d4f43205455474e41543b3339383831,
0x3b3b3b3b3b4e3b3b3b3b3b4c3b303b6f4c3b3934312d544e454e4f504d4f43205455474e41543b3439383831,
0x3b3b3b3b3b4e3b3b3b3b3b4c3b303b6f4c3b3035312d544e454e4f504d4f43205455474e41543b3539383831,
0x3b3b3b3b3b4e3b3b3b3b3b4c3b303b6f4c3b3135312d544e454e4f504d4f43205455474e41543b3639383831,
0x3b3b3b3b3b4e3b3b3b3b3b4c3b303b6f4c3b3235312d544e454e4f504d4f43205455474e41543b3739383831,
0x3b3b3b3b3b4e3b3b3b3b3b4c3b303b6f4c3b3335312d544e454e4f504d4f43205455474e41543b3839383831,
0x3b3b3b3b3b4e3b3b3b3b3b4c3b303b6f4c3b3435312d544e454e4f504d4f43205455474e41543b3939383831,
0x3b3b3b3b3b4e3b3b3b3b3b4c3b303b6f4c3b3535312d544e454e4f504d4f43205455474e41543b4139383831,
0x3b3b3b3b3b4e3b3b3b3b3b4c3b303b6f4c3b3635312d544e454e4f504d4f43205455474e41543b4239383831,
0x3b3b3b3b3b4e3b3b3b3b3b4c3b303b6f4c3b3735312d544e454e4f504d4f43205455474e41543b4339383831,
0x3b3b3b3b3b4e3b3b3b3b3b4c3b303b6f4c3b3835312d544e454e4f504d4f43205455474e41543b4439383831,
0x3b3b3b3b3b4e3b3b3b3b3b4c3b303b6f4c3b3935312d544e454e4f504d4f43205455474e41543b4539383831,
0x3b3b3b3b3b4e3b3b3b3b3b4c3b303b6f4c3b3036312d544e454e4f504d4f43205455474e41543b4639383831,
0x3b3b3b3b3b4e3b3b3b3b3b4c3b303b6f4c3b3136312d544e454e4f504d4f43205455474e41543b3041383831,
0x3b3b3b3b3b4e3b3b3b3b3b4c3b303b6f4c3b3236312d544e454e4f504d4f43205455474e41543b3141383831,
0x3b3b3b3b3b4e3b3b3b3b3b4c3b303b6f4c3b3336312d544e454e4f504d4f43205455474e41543b3241383831,
0x3b3b3b3b3b4e3b3b3b3b3b4c3b303b6f4c3b3436312d544e454e4f504d4f43205455474e41543b3341383831,
0x3b3b3b3b3b4e3b3b3b3b3b4c3b303b6f4c3b3536312d544e454e4f504d4f43205455474e41543b3441383831,
0x3b3b3b3b3b4e3b3b3b3b3b4c3b303b6f4c3b3636312d544e454e4f504d4f43205455474e41543b3541383831,
0x3b3b3b3b3b4e3b3b3b3b3b4c3b303b6f4c3b3736312d544e454e4f504d4f43205455474e41543b3641383831,
0x3b3b3b3b3b4e3b3b3b3b3b4c3b303b6f4c3b3836312d544e454e4f504d4f43205455474e41543b3741383831,
0x3b3b3b3b3b4e3b3b3b3b3b4c3b303b6f4c3b3936312d544e454e4f504d4f43205455474e41543b3841383831,
0x3b3b3b3b3b4e3b3b3b3b3b4c3b303b6f4c3b3037312d544e454e4f504d4f43205455474e41543b3941383831,
0x3b3b3b3b3b4e3b3b3b3b3b4c3b303b6f4c3b3137312d544e454e4f504d4f43205455474e41543b4141383831,
0x3b3b3b3b3b4e3b3b3b3b3b4c3b303b6f4c3b3237312d544e454e4f504d4f43205455474e41543b4241383831,
0x3b3b3b3b3b4e3b3b3b3b3b4c3b303b6f4c3b3337312d544e454e4f504d4f43205455474e41543b4341383831,
0x3b3b3b3b3b4e3b3b3b3b3b4c3b303b6f4c3b3437312d544e454e4f504d4f43205455474e41543b4441383831,
0x3b3b3b3b3b4e3b3b3b3b3b4c3b303b6f4c3b3537312d544e454e4f504d4f43205455474e41543b4541383831,
0x3b3b3b3b3b4e3b3b3b3b3b4c3b303b6f4c3b3637312d544e454e4f504d4f43205455474e41543b4641383831,
0x3b3b3b3b3b4e3b3b3b3b3b4c3b303b6f4c3b3737312d544e454e4f504d4f43205455474e41543b3042383831,
0x3b3b3b3b3b4e3b3b3b3b3b4c3b303b6f4c3b3837312d544e454e4f504d4f43205455474e41543b3142383831,
0x3b3b3b3b3b4e3b3b3b3b3b4c3b303b6f4c3b3937312d544e454e4f504d4f43205455474e41543b3242383831,
0x3b3b3b3b3b4e3b3b3b3b3b4c3b303b6f4c3b3038312d544e454e4f504d4f43205455474e41543b3342383831,
0x3b3b3b3b3b4e3b3b3b3b3b4c3b303b6f4c3b3138312d544e454e4f504d4f43205455474e41543b3442383831,
0x3b3b3b3b3b4e3b3b3b3b3b4c3b303b6f4c3b3238312d544e454e4f504d4f43205455474e41543b3542383831,
0x3b3b3b3b3b4e3b3b3b3b3b4c3b303b6f4c3b3338312d544e454e4f504d4f43205455474e41543b3642383831,
0x3b3b3b3b3b4e3b3b3b3b3b4c3b303b6f4c3b3438312d544e454e4f504d4f43205455474e41543b3742383831,
0x3b3b3b3b3b4e3b3b3b3b3b4c3b303b6f4c3b3538312d544e454e4f504d4f43205455474e41543b3842383831,
0x3b3b3b3b3b4e3b3b3b3b3b4c3b303b6f4c3b3638312d544e454e4f504d4f43205455474e41543b3942383831,
0x3b3b3b3b3b4e3b3b3b3b3b4c3b303b6f4c3b3738312d544e454e4f504d4f43205455474e41543b4142383831,
0x3b3b3b3b3b4e3b3b3b3b3b4c3b303b6f4c3b3838312d544e454e4f504d4f43205455474e41543b4242383831,
0x3b3b3b3b3b4e3b3b3b3b3b4c3b303b6f4c3b3938312d544e454e4f504d4f43205455474e41543b4342383831,
0x3b3b3b3b3b4e3b3b3b3b3b4c3b303b6f4c3b3039312d544e454e4f504d4f43205455474e41543b4442383831,
0x3b3b3b3b3b4e3b3b3b3b3b4c3b303b6f4c3b3139312d544e454e4f504d4f43205455474e41543b4542383831,
0x3b3b3b3b3b4e3b3b3b3b3b4c3b303b6f4c3b3239312d544e454e4f504d4f43205455474e41543b4642383831,
0x3b3b3b3b3b4e3b3b3b3b3b4c3b303b6f4c3b3339312d544e454e4f504d4f43205455474e41543b3043383831,
0x3b3b3b3b3b4e3b3b3b3b3b4c3b303b6f4c3b3439312d544e454e4f504d4f43205455474e41543b3143383831,
0x3b3b3b3b3b4e3b3b3b3b3b4c3b303b6f4c3b3539312d544e454e4f504d4f43205455474e41543b3243383831,
0x3b3b3b3b3b4e3b3b3b3b3b4c3b303b6f4c3b3639312d544e454e4f504d4f43205455474e41543b3343383831,
0x3b3b3b3b3b4e3b3b3b3b3b4c3b303b6f4c3b3739312d544e454e4f504d4f43205455474e41543b3443383831,
0x3b3b3b3b3b4e3b3b3b3b3b4c3b303b6f4c3b3839312d544e454e4f504d4f43205455474e41543b3543383831,
0x3b3b3b3b3b4e3b3b3b3b3b4c3b303b6f4c3b3939312d544e454e4f504d4f43205455474e41543b3643383831,
0x3b3b3b3b3b4e3b3b3b3b3b4c3b303b6f4c3b3030322d544e454e4f504d4f43205455474e41543b3743383831,
0x3b3b3b3b3b4e3b3b3b3b3b4c3b303b6f4c3b3130322d544e454e4f504d4f43205455474e41543b3843383831,
0x3b3b3b3b3b4e3b3b3b3b3b4c3b303b6f4c3b3230322d544e454e4f504d4f43205455474e41543b3943383831,
0x3b3b3b3b3b4e3b3b3b3b3b4c3b303b6f4c3b3330322d544e454e4f504d4f43205455474e41543b4143383831,
0x3b3b3b3b3b4e3b3b3b3b3b4c3b303b6f4c3b3430322d544e454e4f504d4f43205455474e41543b4243383831,
0x3b3b3b3b3b4e3b3b3b3b3b4c3b303b6f4c3b3530322d544e454e4f504d4f43205455474e41543b4343383831,
0x3b3b3b3b3b4e3b3b3b3b3b4c3b303b6f4c3b3630322d544e454e4f504d4f43205455474e41543b4443383831,
0x3b3b3b3b3b4e3b3b3b3b3b4c3b303b6f4c3b3730322d544e454e4f504d4f43205455474e41543b4543383831,
0x3b3b3b3b3b4e3b3b3b3b3b4c3b303b6f4c3b3830322d544e454e4f504d4f43205455474e41543b4643383831,
0x3b3b3b3b3b4e3b3b3b3b3b4c3b303b6f4c3b3930322d544e454e4f504d4f43205455474e41543b3044383831,
0x3b3b3b3b3b4e3b3b3b3b3b4c3b303b6f4c3b3031322d544e454e4f504d4f43205455474e41543b3144383831,
0x3b3b3b3b3b4e3b3b3b3b3b4c3b303b6f4c3b3131322d544e454e4f504d4f43205455474e41543b3244383831,
0x3b3b3b3b3b4e3b3b3b3b3b4c3b303b6f4c3b3231322d544e454e4f504d4f43205455474e41543b3344383831,
0x3b3b3b3b3b4e3b3b3b3b3b4c3b303b6f4c3b3331322d544e454e4f504d4f43205455474e41543b3444383831,
0x3b3b3b3b3b4e3b3b3b3b3b4c3b303b6f4c3b3431322d544e454e4f504d4f43205455474e41543b3544383831,
0x3b3b3b3b3b4e3b3b3b3b3b4c3b303b6f4c3b3531322d544e454e4f504d4f43205455474e41543b3644383831,
0x3b3b3b3b3b4e3b3b3b3b3b4c3b303b6f4c3b3631322d544e454e4f504d4f43205455474e41543b3744383831,
0x3b3b3b3b3b4e3b3b3b3b3b4c3b303b6f4c3b3731322d544e454e4f504d4f43205455474e41543b3844383831,
0x3b3b3b3b3b4e3b3b3b3b3b4c3b303b6f4c3b3831322d544e454e4f504d4f43205455474e41543b3944383831,
0x3b3b3b3b3b4e3b3b3b3b3b4c3b303b6f4c3b3931322d544e454e4f504d4f43205455474e41543b4144383831,
0x3b3b3b3b3b4e3b3b3b3b3b4c3b303b6f4c3b3032322d544e454e4f504d4f43205455474e41543b4244383831,
0x3b3b3b3b3b4e3b3b3b3b3b4c3b303b6f4c3b3132322d544e454e4f504d4f43205455474e41543b4344383831,
0x3b3b3b3b3b4e3b3b3b3b3b4c3b303b6f4c3b3232322d544e454e4f504d4f43205455474e41543b4444383831,
0x3b3b3b3b3b4e3b3b3b3b3b4c3b303b6f4c3b3332322d544e454e4f504d4f43205455474e41543b4544383831,
0x3b3b3b3b3b4e3b3b3b3b3b4c3b303b6f4c3b3432322d544e454e4f504d4f43205455474e41543b4644383831,
0x3b3b3b3b3b4e3b3b3b3b3b4c3b303b6f4c3b3532322d544e454e4f504d4f43205455474e41543b3045383831,
0x3b3b3b3b3b4e3b3b3b3b3b4c3b303b6f4c3b3632322d544e454e4f504d4f43205455474e41543b3145383831,
0x3b3b3b3b3b4e3b3b3b3b3b4c3b303b6f4c3b3732322d544e454e4f504d4f43205455474e41543b3245383831,
0x3b3b3b3b3b4e3b3b3b3b3b4c3b303b6f4c3b3832322d544e454e4f504d4f43205455474e41543b3345383831,
0x3b3b3b3b3b4e3b3b3b3b3b4c3b303b6f4c3b3932322d544e454e4f504d4f43205455474e41543b3445383831]

/-- src/u5e/props/UnicodeData.txt lines 24321-24576. -/
def rawUcd95 : List Nat := [
0x3b3b3b3b3b4e3b3b3b3b3b4c3b303b6f4c3b3033322d544e454e4f504d4f43205455474e41543b3545383831,
0x3b3b3b3b3b4e3b3b3b3b3b4c3b303b6f4c3b3133322d544e454e4f504d4f43205455474e41543b3645383831,
0x3b3b3b3b3b4e3b3b3b3b3b4c3b303b6f4c3b3233322d544e454e4f504d4f43205455474e41543b3745383831,
0x3b3b3b3b3b4e3b3b3b3b3b4c3b303b6f4c3b3333322d544e454e4f504d4f43205455474e41543b3845383831,
0x3b3b3b3b3b4e3b3b3b3b3b4c3b303b6f4c3b3433322d544e454e4f504d4f43205455474e41543b3945383831,
0x3b3b3b3b3b4e3b3b3b3b3b4c3b303b6f4c3b3533322d544e454e4f504d4f43205455474e41543b4145383831,
0x3b3b3b3b3b4e3b3b3b3b3b4c3b303b6f4c3b3633322d544e454e4f504d4f43205455474e41543b4245383831,
0x3b3b3b3b3b4e3b3b3b3b3b4c3b303b6f4c3b3733322d544e454e4f504d4f43205455474e41543b4345383831,
0x3b3b3b3b3b4e3b3b3b3b3b4c3b303b6f4c3b3833322d544e454e4f504d4f43205455474e41543b4445383831,
0x3b3b3b3b3b4e3b3b3b3b3b4c3b303b6f4c3b3933322d544e454e4f504d4f43205455474e41543b4545383831,
0x3b3b3b3b3b4e3b3b3b3b3b4c3b303b6f4c3b3034322d544e454e4f504d4f43205455474e41543b4645383831,
0x3b3b3b3b3b4e3b3b3b3b3b4c3b303b6f4c3b3134322d544e454e4f504d4f43205455474e41543b3046383831,
0x3b3b3b3b3b4e3b3b3b3b3b4c3b303b6f4c3b3234322d544e454e4f504d4f43205455474e41543b3146383831,
0x3b3b3b3b3b4e3b3b3b3b3b4c3b303b6f4c3b3334322d544e454e4f504d4f43205455474e41543b3246383831,
0x3b3b3b3b3b4e3b3b3b3b3b4c3b303b6f4c3b3434322d544e454e4f504d4f43205455474e41543b3346383831,
0x3b3b3b3b3b4e3b3b3b3b3b4c3b303b6f4c3b3534322d544e454e4f504d4f43205455474e41543b3446383831,
0x3b3b3b3b3b4e3b3b3b3b3b4c3b303b6f4c3b3634322d544e454e4f504d4f43205455474e41543b3546383831,
0x3b3b3b3b3b4e3b3b3b3b3b4c3b303b6f4c3b3734322d544e454e4f504d4f43205455474e41543b3646383831,
0x3b3b3b3b3b4e3b3b3b3b3b4c3b303b6f4c3b3834322d544e454e4f504d4f43205455474e41543b3746383831,
0x3b3b3b3b3b4e3b3b3b3b3b4c3b303b6f4c3b3934322d544e454e4f504d4f43205455474e41543b3846383831,
0x3b3b3b3b3b4e3b3b3b3b3b4c3b303b6f4c3b3035322d544e454e4f504d4f43205455474e41543b3946383831,
0x3b3b3b3b3b4e3b3b3b3b3b4c3b303b6f4c3b3135322d544e454e4f504d4f43205455474e41543b4146383831,
0x3b3b3b3b3b4e3b3b3b3b3b4c3b303b6f4c3b3235322d544e454e4f504d4f43205455474e41543b4246383831,
0x3b3b3b3b3b4e3b3b3b3b3b4c3b303b6f4c3b3335322d544e454e4f504d4f43205455474e41543b4346383831,
0x3b3b3b3b3b4e3b3b3b3b3b4c3b303b6f4c3b3435322d544e454e4f504d4f43205455474e41543b4446383831,
0x3b3b3b3b3b4e3b3b3b3b3b4c3b303b6f4c3b3535322d544e454e4f504d4f43205455474e41543b4546383831,
0x3b3b3b3b3b4e3b3b3b3b3b4c3b303b6f4c3b3635322d544e454e4f504d4f43205455474e41543b4646383831,
0x3b3b3b3b3b4e3b3b3b3b3b4c3b303b6f4c3b3735322d544e454e4f504d4f43205455474e41543b3030393831,
0x3b3b3b3b3b4e3b3b3b3b3b4c3b303b6f4c3b3835322d544e454e4f504d4f43205455474e41543b3130393831,
0x3b3b3b3b3b4e3b3b3b3b3b4c3b303b6f4c3b3935322d544e454e4f504d4f43205455474e41543b3230393831,
0x3b3b3b3b3b4e3b3b3b3b3b4c3b303b6f4c3b3036322d544e454e4f504d4f43205455474e41543b3330393831,
0x3b3b3b3b3b4e3b3b3b3b3b4c3b303b6f4c3b3136322d544e454e4f504d4f43205455474e41543b3430393831,
0x3b3b3b3b3b4e3b3b3b3b3b4c3b303b6f4c3b3236322d544e454e4f504d4f43205455474e41543b3530393831,
0x3b3b3b3b3b4e3b3b3b3b3b4c3b303b6f4c3b3336322d544e454e4f504d4f43205455474e41543b3630393831,
0x3b3b3b3b3b4e3b3b3b3b3b4c3b303b6f4c3b3436322d544e454e4f504d4f43205455474e41543b3730393831,
0x3b3b3b3b3b4e3b3b3b3b3b4c3b303b6f4c3b3536322d544e454e4f504d4f43205455474e41543b3830393831,
0x3b3b3b3b3b4e3b3b3b3b3b4c3b303b6f4c3b3636322d544e454e4f504d4f43205455474e41543b3930393831,
0x3b3b3b3b3b4e3b3b3b3b3b4c3b303b6f4c3b3736322d544e454e4f504d4f43205455474e41543b4130393831,
0x3b3b3b3b3b4e3b3b3b3b3b4c3b303b6f4c3b3836322d544e454e4f504d4f43205455474e41543b4230393831,
0x3b3b3b3b3b4e3b3b3b3b3b4c3b303b6f4c3b3936322d544e454e4f504d4f43205455474e41543b4330393831,
0x3b3b3b3b3b4e3b3b3b3b3b4c3b303b6f4c3b3037322d544e454e4f504d4f43205455474e41543b4430393831,
0x3b3b3b3b3b4e3b3b3b3b3b4c3b303b6f4c3b3137322d544e454e4f504d4f43205455474e41543b4530393831,
0x3b3b3b3b3b4e3b3b3b3b3b4c3b303b6f4c3b3237322d544e454e4f504d4f43205455474e41543b4630393831,
0x3b3b3b3b3b4e3b3b3b3b3b4c3b303b6f4c3b3337322d544e454e4f504d4f43205455474e41543b3031393831,
0x3b3b3b3b3b4e3b3b3b3b3b4c3b303b6f4c3b3437322d544e454e4f504d4f43205455474e41543b3131393831,
0x3b3b3b3b3b4e3b3b3b3b3b4c3b303b6f4c3b3537322d544e454e4f504d4f43205455474e41543b3231393831,
0x3b3b3b3b3b4e3b3b3b3b3b4c3b303b6f4c3b3637322d544e454e4f504d4f43205455474e41543b3331393831,
0x3b3b3b3b3b4e3b3b3b3b3b4c3b303b6f4c3b3737322d544e454e4f504d4f43205455474e41543b3431393831,
0x3b3b3b3b3b4e3b3b3b3b3b4c3b303b6f4c3b3837322d544e454e4f504d4f43205455474e41543b3531393831,
0x3b3b3b3b3b4e3b3b3b3b3b4c3b303b6f4c3b3937322d544e454e4f504d4f43205455474e41543b3631393831,
0x3b3b3b3b3b4e3b3b3b3b3b4c3b303b6f4c3b3038322d544e454e4f504d4f43205455474e41543b3731393831,
0x3b3b3b3b3b4e3b3b3b3b3b4c3b303b6f4c3b3138322d544e454e4f504d4f43205455474e41543b3831393831,
0x3b3b3b3b3b4e3b3b3b3b3b4c3b303b6f4c3b3238322d544e454e4f504d4f43205455474e41543b3931393831,
0x3b3b3b3b3b4e3b3b3b3b3b4c3b303b6f4c3b3338322d544e454e4f504d4f43205455474e41543b4131393831,
0x3b3b3b3b3b4e3b3b3b3b3b4c3b303b6f4c3b3438322d544e454e4f504d4f43205455474e41543b4231393831,
0x3b3b3b3b3b4e3b3b3b3b3b4c3b303b6f4c3b3538322d544e454e4f504d4f43205455474e41543b4331393831,
0x3b3b3b3b3b4e3b3b3b3b3b4c3b303b6f4c3b3638322d544e454e4f504d4f43205455474e41543b4431393831,
0x3b3b3b3b3b4e3b3b3b3b3b4c3b303b6f4c3b3738322d544e454e4f504d4f43205455474e41543b4531393831,
0x3b3b3b3b3b4e3b3b3b3b3b4c3b303b6f4c3b3838322d544e454e4f504d4f43205455474e41543b4631393831,
0x3b3b3b3b3b4e3b3b3b3b3b4c3b303b6f4c3b3938322d544e454e4f504d4f43205455474e41543b3032393831,
0x3b3b3b3b3b4e3b3b3b3b3b4c3b303b6f4c3b3039322d544e454e4f504d4f43205455474e41543b3132393831,
0x3b3b3b3b3b4e3b3b3b3b3b4c3b303b6f4c3b3139322d544e454e4f504d4f43205455474e41543b3232393831,
0x3b3b3b3b3b4e3b3b3b3b3b4c3b303b6f4c3b3239322d544e454e4f504d4f43205455474e41543b3332393831,
0x3b3b3b3b3b4e3b3b3b3b3b4c3b303b6f4c3b3339322d544e454e4f504d4f43205455474e41543b3432393831,
0x3b3b3b3b3b4e3b3b3b3b3b4c3b303b6f4c3b3439322d544e454e4f504d4f43205455474e41543b3532393831,
0x3b3b3b3b3b4e3b3b3b3b3b4c3b303b6f4c3b3539322d544e454e4f504d4f43205455474e41543b3632393831,
0x3b3b3b3b3b4e3b3b3b3b3b4c3b303b6f4c3b3639322d544e454e4f504d4f43205455474e41543b3732393831,
0x3b3b3b3b3b4e3b3b3b3b3b4c3b303b6f4c3b3739322d544e454e4f504d4f43205455474e41543b3832393831,
0x3b3b3b3b3b4e3b3b3b3b3b4c3b303b6f4c3b3839322d544e454e4f504d4f43205455474e41543b3932393831,
0x3b3b3b3b3b4e3b3b3b3b3b4c3b303b6f4c3b3939322d544e454e4f504d4f43205455474e41543b4132393831,
0x3b3b3b3b3b4e3b3b3b3b3b4c3b303b6f4c3b3030332d544e454e4f504d4f43205455474e41543b4232393831,
0x3b3b3b3b3b4e3b3b3b3b3b4c3b303b6f4c3b3130332d544e454e4f504d4f43205455474e41543b4332393831,
0x3b3b3b3b3b4e3b3b3b3b3b4c3b303b6f4c3b3230332d544e454e4f504d4f43205455474e41543b4432393831,
0x3b3b3b3b3b4e3b3b3b3b3b4c3b303b6f4c3b3330332d544e454e4f504d4f43205455474e41543b4532393831,
0x3b3b3b3b3b4e3b3b3b3b3b4c3b303b6f4c3b3430332d544e454e4f504d4f43205455474e41543b4632393831,
0x3b3b3b3b3b4e3b3b3b3b3b4c3b303b6f4c3b3530332d544e454e4f504d4f43205455474e41543b3033393831,
0x3b3b3b3b3b4e3b3b3b3b3b4c3b303b6f4c3b3630332d544e454e4f504d4f43205455474e41543b3133393831,
0x3b3b3b3b3b4e3b3b3b3b3b4c3b303b6f4c3b3730332d544e454e4f504d4f43205455474e41543b3233393831,
0x3b3b3b3b3b4e3b3b3b3b3b4c3b303b6f4c3b3830332d544e454e4f504d4f43205455474e41543b3333393831,
0x3b3b3b3b3b4e3b3b3b3b3b4c3b303b6f4c3b3930332d544e454e4f504d4f43205455474e41543b3433393831,
0x3b3b3b3b3b4e3b3b3b3b3b4c3b303b6f4c3b3031332d544e454e4f504d4f43205455474e41543b3533393831,
0x3b3b3b3b3b4e3b3b3b3b3b4c3b303b6f4c3b3131332d544e454e4f504d4f43205455474e41543b3633393831,
0x3b3b3b3b3b4e3b3b3b3b3b4c3b303b6f4c3b3231332d544e454e4f504d4f43205455474e41543b3733393831,
0x3b3b3b3b3b4e3b3b3b3b3b4c3b303b6f4c3b3331332d544e454e4f504d4f43205455474e41543b3833393831,
0x3b3b3b3b3b4e3b3b3b3b3b4c3b303b6f4c3b3431332d544e454e4f504d4f43205455474e41543b3933393831,
0x3b3b3b3b3b4e3b3b3b3b3b4c3b303b6f4c3b3531332d544e454e4f504d4f43205455474e41543b4133393831,
0x3b3b3b3b3b4e3b3b3b3b3b4c3b303b6f4c3b3631332d544e454e4f504d4f43205455474e41543b4233393831,
0x3b3b3b3b3b4e3b3b3b3b3b4c3b303b6f4c3b3731332d544e454e4f504d4f43205455474e41543b4333393831,
0x3b3b3b3b3b4e3b3b3b3b3b4c3b303b6f4c3b3831332d544e454e4f504d4f43205455474e41543b4433393831,
0x3b3b3b3b3b4e3b3b3b3b3b4c3b303b6f4c3b3931332d544e454e4f504d4f43205455474e41543b4533393831,
0x3b3b3b3b3b4e3b3b3b3b3b4c3b303b6f4c3b3032332d544e454e4f504d4f43205455474e41543b4633393831,
0x3b3b3b3b3b4e3b3b3b3b3b4c3b303b6f4c3b3132332d544e454e4f504d4f43205455474e41543b3034393831,
0x3b3b3b3b3b4e3b3b3b3b3b4c3b303b6f4c3b3232332d544e454e4f504d4f43205455474e41543b3134393831,
0x3b3b3b3b3b4e3b3b3b3b3b4c3b303b6f4c3b3332332d544e454e4f504d4f43205455474e41543b3234393831,
0x3b3b3b3b3b4e3b3b3b3b3b4c3b303b6f4c3b3432332d544e454e4f504d4f43205455474e41543b3334393831,
0x3b3b3b3b3b4e3b3b3b3b3b4c3b303b6f4c3b3532332d544e454e4f504d4f43205455474e41543b3434393831,
0x3b3b3b3b3b4e3b3b3b3b3b4c3b303b6f4c3b3632332d544e454e4f504d4f43205455474e41543b3534393831,
0x3b3b3b3b3b4e3b3b3b3b3b4c3b303b6f4c3b3732332d544e454e4f504d4f43205455474e41543b3634393831,
0x3b3b3b3b3b4e3b3b3b3b3b4c3b303b6f4c3b3832332d544e454e4f504d4f43205455474e41543b3734393831,
0x3b3b3b3b3b4e3b3b3b3b3b4c3b303b6f4c3b3932332d544e454e4f504d4f43205455474e41543b3834393831,
0x3b3b3b3b3b4e3b3b3b3b3b4c3b303b6f4c3b3033332d544e454e4f504d4f43205455474e41543b3934393831,
0x3b3b3b3b3b4e3b3b3b3b3b4c3b303b6f4c3b3133332d544e454e4f504d4f43205455474e41543b4134393831,
0x3b3b3b3b3b4e3b3b3b3b3b4c3b303b6f4c3b3233332d544e454e4f504d4f43205455474e41543b4234393831,
0x3b3b3b3b3b4e3b3b3b3b3b4c3b303b6f4c3b3333332d544e454e4f504d4f43205455474e41543b4334393831,
0x3b3b3b3b3b4e3b3b3b3b3b4c3b303b6f4c3b3433332d544e454e4f504d4f43205455474e41543b4434393831,
0x3b3b3b3b3b4e3b3b3b3b3b4c3b303b6f4c3b3533332d544e454e4f504d4f43205455474e41543b4534393831,
0x3b3b3b3b3b4e3b3b3b3b3b4c3b303b6f4c3b3633332d544e454e4f504d4f43205455474e41543b4634393831,
0x3b3b3b3b3b4e3b3b3b3b3b4c3b303b6f4c3b3733332d544e454e4f504d4f43205455474e41543b3035393831,
0x3b3b3b3b3b4e3b3b3b3b3b4c3b303b6f4c3b3833332d544e454e4f504d4f43205455474e41543b3135393831,
0x3b3b3b3b3b4e3b3b3b3b3b4c3b303b6f4c3b3933332d544e454e4f504d4f43205455474e41543b3235393831,
0x3b3b3b3b3b4e3b3b3b3b3b4c3b303b6f4c3b3034332d544e454e4f504d4f43205455474e41543b3335393831,
0x3b3b3b3b3b4e3b3b3b3b3b4c3b303b6f4c3b3134332d544e454e4f504d4f43205455474e41543b3435393831,
0x3b3b3b3b3b4e3b3b3b3b3b4c3b303b6f4c3b3234332d544e454e4f504d4f43205455474e41543b3535393831,
0x3b3b3b3b3b4e3b3b3b3b3b4c3b303b6f4c3b3334332d544e454e4f504d4f43205455474e41543b3635393831,
0x3b3b3b3b3b4e3b3b3b3b3b4c3b303b6f4c3b3434332d544e454e4f504d4f43205455474e41543b3735393831,
0x3b3b3b3b3b4e3b3b3b3b3b4c3b303b6f4c3b3534332d544e454e4f504d4f43205455474e41543b3835393831,
0x3b3b3b3b3b4e3b3b3b3b3b4c3b303b6f4c3b3634332d544e454e4f504d4f43205455474e41543b3935393831,
0x3b3b3b3b3b4e3b3b3b3b3b4c3b303b6f4c3b3734332d544e454e4f504d4f43205455474e41543b4135393831,
0x3b3b3b3b3b4e3b3b3b3b3b4c3b303b6f4c3b3834332d544e454e4f504d4f43205455474e41543b4235393831,
0x3b3b3b3b3b4e3b3b3b3b3b4c3b303b6f4c3b3934332d544e454e4f504d4f43205455474e41543b4335393831,
0x3b3b3b3b3b4e3b3b3b3b3b4c3b303b6f4c3b3035332d544e454e4f504d4f43205455474e41543b4435393831,
0x3b3b3b3b3b4e3b3b3b3b3b4c3b303b6f4c3b3135332d544e454e4f504d4f43205455474e41543b4535393831,
0x3b3b3b3b3b4e3b3b3b3b3b4c3b303b6f4c3b3235332d544e454e4f504d4f43205455474e41543b4635393831,
0x3b3b3b3b3b4e3b3b3b3b3b4c3b303b6f4c3b3335332d544e454e4f504d4f43205455474e41543b3036393831,
0x3b3b3b3b3b4e3b3b3b3b3b4c3b303b6f4c3b3435332d544e454e4f504d4f43205455474e41543b3136393831,
0x3b3b3b3b3b4e3b3b3b3b3b4c3b303b6f4c3b3535332d544e454e4f504d4f43205455474e41543b3236393831,
0x3b3b3b3b3b4e3b3b3b3b3b4c3b303b6f4c3b3635332d544e454e4f504d4f43205455474e41543b3336393831,
0x3b3b3b3b3b4e3b3b3b3b3b4c3b303b6f4c3b3735332d544e454e4f504d4f43205455474e41543b3436393831,
0x3b3b3b3b3b4e3b3b3b3b3b4c3b303b6f4c3b3835332d544e454e4f504d4f43205455474e41543b3536393831,
0x3b3b3b3b3b4e3b3b3b3b3b4c3b303b6f4c3b3935332d544e454e4f504d4f43205455474e41543b3636393831,
0x3b3b3b3b3b4e3b3b3b3b3b4c3b303b6f4c3b3036332d544e454e4f504d4f43205455474e41543b3736393831,
0x3b3b3b3b3b4e3b3b3b3b3b4c3b303b6f4c3b3136332d544e454e4f504d4f43205455474e41543b3836393831,
0x3b3b3b3b3b4e3b3b3b3b3b4c3b303b6f4c3b3236332d544e454e4f504d4f43205455474e41543b3936393831,
0x3b3b3b3b3b4e3b3b3b3b3b4c3b303b6f4c3b3336332d544e454e4f504d4f43205455474e41543b4136393831,
0x3b3b3b3b3b4e3b3b3b3b3b4c3b303b6f4c3b3436332d544e454e4f504d4f43205455474e41543b4236393831,
0x3b3b3b3b3b4e3b3b3b3b3b4c3b303b6f4c3b3536332d544e454e4f504d4f43205455474e41543b4336393831,
0x3b3b3b3b3b4e3b3b3b3b3b4c3b303b6f4c3b3636332d544e454e4f504d4f43205455474e41543b4436393831,
0x3b3b3b3b3b4e3b3b3b3b3b4c3b303b6f4c3b3736332d544e454e4f504d4f43205455474e41543b4536393831,
0x3b3b3b3b3b4e3b3b3b3b3b4c3b303b6f4c3b3836332d544e454e4f504d4f43205455474e41543b4636393831,
0x3b3b3b3b3b4e3b3b3b3b3b4c3b303b6f4c3b3936332d544e454e4f504d4f43205455474e41543b3037393831,
0x3b3b3b3b3b4e3b3b3b3b3b4c3b303b6f4c3b3037332d544e454e4f504d4f43205455474e41543b3137393831,
0x3b3b3b3b3b4e3b3b3b3b3b4c3b303b6f4c3b3137332d544e454e4f504d4f43205455474e41543b3237393831,
0x3b3b3b3b3b4e3b3b3b3b3b4c3b303b6f4c3b3237332d544e454e4f504d4f43205455474e41543b3337393831,
0x3b3b3b3b3b4e3b3b3b3b3b4c3b303b6f4c3b3337332d544e454e4f504d4f43205455474e41543b3437393831,
0x3b3b3b3b3b4e3b3b3b3b3b4c3b303b6f4c3b3437332d544e454e4f504d4f43205455474e41543b3537393831,
0x3b3b3b3b3b4e3b3b3b3b3b4c3b303b6f4c3b3537332d544e454e4f504d4f43205455474e41543b3637393831,
0x3b3b3b3b3b4e3b3b3b3b3b4c3b303b6f4c3b3637332d544e454e4f504d4f43205455474e41543b3737393831,
0x3b3b3b3b3b4e3b3b3b3b3b4c3b303b6f4c3b3737332d544e454e4f504d4f43205455474e41543b3837393831,
0x3b3b3b3b3b4e3b3b3b3b3b4c3b303b6f4c3b3837332d544e454e4f504d4f43205455474e41543b3937393831,
0x3b3b3b3b3b4e3b3b3b3b3b4c3b303b6f4c3b3937332d544e454e4f504d4f43205455474e41543b4137393831,
0x3b3b3b3b3b4e3b3b3b3b3b4c3b303b6f4c3b3038332d544e454e4f504d4f43205455474e41543b4237393831,
0x3b3b3b3b3b4e3b3b3b3b3b4c3b303b6f4c3b3138332d544e454e4f504d4f43205455474e41543b4337393831,
0x3b3b3b3b3b4e3b3b3b3b3b4c3b303b6f4c3b3238332d544e454e4f504d4f43205455474e41543b4437393831,
0x3b3b3b3b3b4e3b3b3b3b3b4c3b303b6f4c3b3338332d544e454e4f504d4f43205455474e41543b4537393831,
0x3b3b3b3b3b4e3b3b3b3b3b4c3b303b6f4c3b3438332d544e454e4f504d4f43205455474e41543b4637393831,
0x3b3b3b3b3b4e3b3b3b3b3b4c3b303b6f4c3b3538332d544e454e4f504d4f43205455474e41543b3038393831,
0x3b3b3b3b3b4e3b3b3b3b3b4c3b303b6f4c3b3638332d544e454e4f504d4f43205455474e41543b3138393831,
0x3b3b3b3b3b4e3b3b3b3b3b4c3b303b6f4c3b3738332d544e454e4f504d4f43205455474e41543b3238393831,
0x3b3b3b3b3b4e3b3b3b3b3b4c3b303b6f4c3b3838332d544e454e4f504d4f43205455474e41543b3338393831,
0x3b3b3b3b3b4e3b3b3b3b3b4c3b303b6f4c3b3938332d544e454e4f504d4f43205455474e41543b3438393831,
0x3b3b3b3b3b4e3b3b3b3b3b4c3b303b6f4c3b3039332d544e454e4f504d4f43205455474e41543b3538393831,
0x3b3b3b3b3b4e3b3b3b3b3b4c3b303b6f4c3b3139332d544e454e4f504d4f43205455474e41543b3638393831,
0x3b3b3b3b3b4e3b3b3b3b3b4c3b303b6f4c3b3239332d544e454e4f504d4f43205455474e41543b3738393831,
0x3b3b3b3b3b4e3b3b3b3b3b4c3b303b6f4c3b3339332d544e454e4f504d4f43205455474e41543b3838393831,
0x3b3b3b3b3b4e3b3b3b3b3b4c3b303b6f4c3b3439332d544e454e4f504d4f43205455474e41543b3938393831,
0x3b3b3b3b3b4e3b3b3b3b3b4c3b303b6f4c3b3539332d544e454e4f504d4f43205455474e41543b4138393831,
0x3b3b3b3b3b4e3b3b3b3b3b4c3b303b6f4c3b3639332d544e454e4f504d4f43205455474e41543b4238393831,
0x3b3b3b3b3b4e3b3b3b3b3b4c3b303b6f4c3b3739332d544e454e4f504d4f43205455474e41543b4338393831,
0x3b3b3b3b3b4e3b3b3b3b3b4c3b303b6f4c3b3839332d544e454e4f504d4f43205455474e41543b4438393831,
0x3b3b3b3b3b4e3b3b3b3b3b4c3b303b6f4c3b3939332d544e454e4f504d4f43205455474e41543b4538393831,
0x3b3b3b3b3b4e3b3b3b3b3b4c3b303b6f4c3b3030342d544e454e4f504d4f43205455474e41543b4638393831,
0x3b3b3b3b3b4e3b3b3b3b3b4c3b303b6f4c3b3130342d544e454e4f504d4f43205455474e41543b3039393831,
0x3b3b3b3b3b4e3b3b3b3b3b4c3b303b6f4c3b3230342d544e454e4f504d4f43205455474e41543b3139393831,
0x3b3b3b3b3b4e3b3b3b3b3b4c3b303b6f4c3b3330342d544e454e4f504d4f43205455474e41543b3239393831,
0x3b3b3b3b3b4e3b3b3b3b3b4c3b303b6f4c3b3430342d544e454e4f504d4f43205455474e41543b3339393831,
0x3b3b3b3b3b4e3b3b3b3b3b4c3b303b6f4c3b3530342d544e454e4f504d4f43205455474e41543b3439393831,
0x3b3b3b3b3b4e3b3b3b3b3b4c3b303b6f4c3b3630342d544e454e4f504d4f43205455474e41543b3539393831,
0x3b3b3b3b3b4e3b3b3b3b3b4c3b303b6f4c3b3730342d544e454e4f504d4f43205455474e41543b3639393831,
0x3b3b3b3b3b4e3b3b3b3b3b4c3b303b6f4c3b3830342d544e454e4f504d4f43205455474e41543b3739393831,
0x3b3b3b3b3b4e3b3b3b3b3b4c3b303b6f4c3b3930342d544e454e4f504d4f43205455474e41543b3839393831,
0x3b3b3b3b3b4e3b3b3b3b3b4c3b303b6f4c3b3031342d544e454e4f504d4f43205455474e41543b3939393831,
0x3b3b3b3b3b4e3b3b3b3b3b4c3b303b6f4c3b3131342d544e454e4f504d4f43205455474e41543b4139393831,
0x3b3b3b3b3b4e3b3b3b3b3b4c3b303b6f4c3b3231342d544e454e4f504d4f43205455474e41543b4239393831,
0x3b3b3b3b3b4e3b3b3b3b3b4c3b303b6f4c3b3331342d544e454e4f504d4f43205455474e41543b4339393831,
0x3b3b3b3b3b4e3b3b3b3b3b4c3b303b6f4c3b3431342d544e454e4f504d4f43205455474e41543b4439393831,
0x3b3b3b3b3b4e3b3b3b3b3b4c3b303b6f4c3b3531342d544e454e4f504d4f43205455474e41543b4539393831,
0x3b3b3b3b3b4e3b3b3b3b3b4c3b303b6f4c3b3631342d544e454e4f504d4f43205455474e41543b4639393831,
0x3b3b3b3b3b4e3b3b3b3b3b4c3b303b6f4c3b3731342d544e454e4f504d4f43205455474e41543b3041393831,
0x3b3b3b3b3b4e3b3b3b3b3b4c3b303b6f4c3b3831342d544e454e4f504d4f43205455474e41543b3141393831,
0x3b3b3b3b3b4e3b3b3b3b3b4c3b303b6f4c3b3931342d544e454e4f504d4f43205455474e41543b3241393831,
0x3b3b3b3b3b4e3b3b3b3b3b4c3b303b6f4c3b3032342d544e454e4f504d4f43205455474e41543b3341393831,
0x3b3b3b3b3b4e3b3b3b3b3b4c3b303b6f4c3b3132342d544e454e4f504d4f43205455474e41543b3441393831,
0x3b3b3b3b3b4e3b3b3b3b3b4c3b303b6f4c3b3232342d544e454e4f504d4f43205455474e41543b3541393831,
0x3b3b3b3b3b4e3b3b3b3b3b4c3b303b6f4c3b3332342d544e454e4f504d4f43205455474e41543b3641393831,
0x3b3b3b3b3b4e3b3b3b3b3b4c3b303b6f4c3b3432342d544e454e4f504d4f43205455474e41543b3741393831,
0x3b3b3b3b3b4e3b3b3b3b3b4c3b303b6f4c3b3532342d544e454e4f504d4f43205455474e41543b3841393831,
0x3b3b3b3b3b4e3b3b3b3b3b4c3b303b6f4c3b3632342d544e454e4f504d4f43205455474e41543b3941393831,
0x3b3b3b3b3b4e3b3b3b3b3b4c3b303b6f4c3b3732342d544e454e4f504d4f43205455474e41543b4141393831,
0x3b3b3b3b3b4e3b3b3b3b3b4c3b303b6f4c3b3832342d544e454e4f504d4f43205455474e41543b4241393831,
0x3b3b3b3b3b4e3b3b3b3b3b4c3b303b6f4c3b3932342d544e454e4f504d4f43205455474e41543b4341393831,
0x3b3b3b3b3b4e3b3b3b3b3b4c3b303b6f4c3b3033342d544e454e4f504d4f43205455474e41543b4441393831,
0x3b3b3b3b3b4e3b3b3b3b3b4c3b303b6f4c3b3133342d544e454e4f504d4f43205455474e41543b4541393831,
0x3b3b3b3b3b4e3b3b3b3b3b4c3b303b6f4c3b3233342d544e454e4f504d4f43205455474e41543b4641393831,
0x3b3b3b3b3b4e3b3b3b3b3b4c3b303b6f4c3b3333342d544e454e4f504d4f43205455474e41543b3042393831,
0x3b3b3b3b3b4e3b3b3b3b3b4c3b303b6f4c3b3433342d544e454e4f504d4f43205455474e41543b3142393831,
0x3b3b3b3b3b4e3b3b3b3b3b4c3b303b6f4c3b3533342d544e454e4f504d4f43205455474e41543b3242393831,
0x3b3b3b3b3b4e3b3b3b3b3b4c3b303b6f4c3b3633342d544e454e4f504d4f43205455474e41543b3342393831,
0x3b3b3b3b3b4e3b3b3b3b3b4c3b303b6f4c3b3733342d544e454e4f504d4f43205455474e41543b3442393831,
0x3b3b3b3b3b4e3b3b3b3b3b4c3b303b6f4c3b3833342d544e454e4f504d4f43205455474e41543b3542393831,
0x3b3b3b3b3b4e3b3b3b3b3b4c3b303b6f4c3b3933342d544e454e4f504d4f43205455474e41543b3642393831,
0x3b3b3b3b3b4e3b3b3b3b3b4c3b303b6f4c3b3034342d544e454e4f504d4f43205455474e41543b3742393831,
0x3b3b3b3b3b4e3b3b3b3b3b4c3b303b6f4c3b3134342d544e454e4f504d4f43205455474e41543b3842393831,
0x3b3b3b3b3b4e3b3b3b3b3b4c3b303b6f4c3b3234342d544e454e4f504d4f43205455474e41543b3942393831,
0x3b3b3b3b3b4e3b3b3b3b3b4c3b303b6f4c3b3334342d544e454e4f504d4f43205455474e41543b4142393831,
0x3b3b3b3b3b4e3b3b3b3b3b4c3b303b6f4c3b3434342d544e454e4f504d4f43205455474e41543b4242393831,
0x3b3b3b3b3b4e3b3b3b3b3b4c3b303b6f4c3b3534342d544e454e4f504d4f43205455474e41543b4342393831,
0x3b3b3b3b3b4e3b3b3b3b3b4c3b303b6f4c3b3634342d544e454e4f504d4f43205455474e41543b4442393831,
0x3b3b3b3b3b4e3b3b3b3b3b4c3b303b6f4c3b3734342d544e454e4f504d4f43205455474e41543b4542393831,
0x3b3b3b3b3b4e3b3b3b3b3b4c3b303b6f4c3b3834342d544e454e4f504d4f43205455474e41543b4642393831,
0x3b3b3b3b3b4e3b3b3b3b3b4c3b303b6f4c3b3934342d544e454e4f504d4f43205455474e41543b3043393831,
0x3b3b3b3b3b4e3b3b3b3b3b4c3b303b6f4c3b3035342d544e454e4f504d4f43205455474e41543b3143393831,
0x3b3b3b3b3b4e3b3b3b3b3b4c3b303b6f4c3b3135342d544e454e4f504d4f43205455474e41543b3243393831,
0x3b3b3b3b3b4e3b3b3b3b3b4c3b303b6f4c3b3235342d544e454e4f504d4f43205455474e41543b3343393831,
0x3b3b3b3b3b4e3b3b3b3b3b4c3b303b6f4c3b3335342d544e454e4f504d4f43205455474e41543b3443393831,
0x3b3b3b3b3b4e3b3b3b3b3b4c3b303b6f4c3b3435342d544e454e4f504d4f43205455474e41543b3543393831,
0x3b3b3b3b3b4e3b3b3b3b3b4c3b303b6f4c3b3535342d544e454e4f504d4f43205455474e41543b3643393831,
0x3b3b3b3b3b4e3b3b3b3b3b4c3b303b6f4c3b3635342d544e454e4f504d4f43205455474e41543b3743393831,
0x3b3b3b3b3b4e3b3b3b3b3b4c3b303b6f4c3b3735342d544e454e4f504d4f43205455474e41543b3843393831,
0x3b3b3b3b3b4e3b3b3b3b3b4c3b303b6f4c3b3835342d544e454e4f504d4f43205455474e41543b3943393831,
0x3b3b3b3b3b4e3b3b3b3b3b4c3b303b6f4c3b3935342d544e454e4f504d4f43205455474e41543b4143393831,
0x3b3b3b3b3b4e3b3b3b3b3b4c3b303b6f4c3b3036342d544e454e4f504d4f43205455474e41543b4243393831,
0x3b3b3b3b3b4e3b3b3b3b3b4c3b303b6f4c3b3136342d544e454e4f504d4f43205455474e41543b4343393831,
0x3b3b3b3b3b4e3b3b3b3b3b4c3b303b6f4c3b3236342d544e454e4f504d4f43205455474e41543b4443393831,
0x3b3b3b3b3b4e3b3b3b3b3b4c3b303b6f4c3b3336342d544e454e4f504d4f43205455474e41543b4543393831,
0x3b3b3b3b3b4e3b3b3b3b3b4c3b303b6f4c3b3436342d544e454e4f504d4f43205455474e41543b4643393831,
0x3b3b3b3b3b4e3b3b3b3b3b4c3b303b6f4c3b3536342d544e454e4f504d4f43205455474e41543b3044393831,
0x3b3b3b3b3b4e3b3b3b3b3b4c3b303b6f4c3b3636342d544e454e4f504d4f43205455474e41543b3144393831,
0x3b3b3b3b3b4e3b3b3b3b3b4c3b303b6f4c3b3736342d544e454e4f504d4f43205455474e41543b3244393831,
0x3b3b3b3b3b4e3b3b3b3b3b4c3b303b6f4c3b3836342d544e454e4f504d4f43205455474e41543b3344393831,
0x3b3b3b3b3b4e3b3b3b3b3b4c3b303b6f4c3b3936342d544e454e4f504d4f43205455474e41543b3444393831,
0x3b3b3b3b3b4e3b3b3b3b3b4c3b303b6f4c3b3037342d544e454e4f504d4f43205455474e41543b3544393831,
0x3b3b3b3b3b4e3b3b3b3b3b4c3b303b6f4c3b3137342d544e454e4f504d4f43205455474e41543b3644393831,
0x3b3b3b3b3b4e3b3b3b3b3b4c3b303b6f4c3b3237342d544e454e4f504d4f43205455474e41543b3744393831,
0x3b3b3b3b3b4e3b3b3b3b3b4c3b303b6f4c3b3337342d544e454e4f504d4f43205455474e41543b3844393831,
0x3b3b3b3b3b4e3b3b3b3b3b4c3b303b6f4c3b3437342d544e454e4f504d4f43205455474e41543b3944393831,
0x3b3b3b3b3b4e3b3b3b3b3b4c3b303b6f4c3b3537342d544e454e4f504d4f43205455474e41543b4144393831,
0x3b3b3b3b3b4e3b3b3b3b3b4c3b303b6f4c3b3637342d544e454e4f504d4f43205455474e41543b4244393831,
0x3b3b3b3b3b4e3b3b3b3b3b4c3b303b6f4c3b3737342d544e454e4f504d4f43205455474e41543b4344393831,
0x3b3b3b3b3b4e3b3b3b3b3b4c3b303b6f4c3b3837342d544e454e4f504d4f43205455474e41543b4444393831,
0x3b3b3b3b3b4e3b3b3b3b3b4c3b303b6f4c3b3937342d544e454e4f504d4f43205455474e41543b4544393831,
0x3b3b3b3b3b4e3b3b3b3b3b4c3b303b6f4c3b3038342d544e454e4f504d4f43205455474e41543b4644393831,
0x3b3b3b3b3b4e3b3b3b3b3b4c3b303b6f4c3b3138342d544e454e4f504d4f43205455474e41543b3045393831,
0x3b3b3b3b3b4e3b3b3b3b3b4c3b303b6f4c3b3238342d544e454e4f504d4f43205455474e41543b3145393831,
0x3b3b3b3b3b4e3b3b3b3b3b4c3b303b6f4c3b3338342d544e454e4f504d4f43205455474e41543b3245393831,
0x3b3b3b3b3b4e3b3b3b3b3b4c3b303b6f4c3b3438342d544e454e4f504d4f43205455474e41543b3345393831,
0x3b3b3b3b3b4e3b3b3b3b3b4c3b303b6f4c3b3538342d544e454e4f504d4f43205455474e41543b3445393831]

/-- src/u5e/props/UnicodeData.txt lines 24577-24832. -/
def rawUcd96 : List Nat := [
0x3b3b3b3b3b4e3b3b3b3b3b4c3b303b6f4c3b3638342d544e454e4f504d4f43205455474e41543b3545393831,
0x3b3b3b3b3b4e3b3b3b3b3b4c3b303b6f4c3b3738342d544e454e4f504d4f43205455474e41543b3645393831,
0x3b3b3b3b3b4e3b3b3b3b3b4c3b303b6f4c3b3838342d544e454e4f504d4f43205455474e41543b3745393831,
0x3b3b3b3b3b4e3b3b3b3b3b4c3b303b6f4c3b3938342d544e454e4f504d4f43205455474e41543b3845393831,
0x3b3b3b3b3b4e3b3b3b3b3b4c3b303b6f4c3b3039342d544e454e4f504d4f43205455474e41543b3945393831,
0x3b3b3b3b3b4e3b3b3b3b3b4c3b303b6f4c3b3139342d544e454e4f504d4f43205455474e41543b4145393831,
0x3b3b3b3b3b4e3b3b3b3b3b4c3b303b6f4c3b3239342d544e454e4f504d4f43205455474e41543b4245393831,
0x3b3b3b3b3b4e3b3b3b3b3b4c3b303b6f4c3b3339342d544e454e4f504d4f43205455474e41543b4345393831,
0x3b3b3b3b3b4e3b3b3b3b3b4c3b303b6f4c3b3439342d544e454e4f504d4f43205455474e41543b4445393831,
0x3b3b3b3b3b4e3b3b3b3b3b4c3b303b6f4c3b3539342d544e454e4f504d4f43205455474e41543b4545393831,
0x3b3b3b3b3b4e3b3b3b3b3b4c3b303b6f4c3b3639342d544e454e4f504d4f43205455474e41543b4645393831,
0x3b3b3b3b3b4e3b3b3b3b3b4c3b303b6f4c3b3739342d544e454e4f504d4f43205455474e41543b3046393831,
0x3b3b3b3b3b4e3b3b3b3b3b4c3b303b6f4c3b3839342d544e454e4f504d4f43205455474e41543b3146393831,
0x3b3b3b3b3b4e3b3b3b3b3b4c3b303b6f4c3b3939342d544e454e4f504d4f43205455474e41543b3246393831,
0x3b3b3b3b3b4e3b3b3b3b3b4c3b303b6f4c3b3030352d544e454e4f504d4f43205455474e41543b3346393831,
0x3b3b3b3b3b4e3b3b3b3b3b4c3b303b6f4c3b3130352d544e454e4f504d4f43205455474e41543b3446393831,
0x3b3b3b3b3b4e3b3b3b3b3b4c3b303b6f4c3b3230352d544e454e4f504d4f43205455474e41543b3546393831,
0x3b3b3b3b3b4e3b3b3b3b3b4c3b303b6f4c3b3330352d544e454e4f504d4f43205455474e41543b3646393831,
0x3b3b3b3b3b4e3b3b3b3b3b4c3b303b6f4c3b3430352d544e454e4f504d4f43205455474e41543b3746393831,
0x3b3b3b3b3b4e3b3b3b3b3b4c3b303b6f4c3b3530352d544e454e4f504d4f43205455474e41543b3846393831,
0x3b3b3b3b3b4e3b3b3b3b3b4c3b303b6f4c3b3630352d544e454e4f504d4f43205455474e41543b3946393831,
0x3b3b3b3b3b4e3b3b3b3b3b4c3b303b6f4c3b3730352d544e454e4f504d4f43205455474e41543b4146393831,
0x3b3b3b3b3b4e3b3b3b3b3b4c3b303b6f4c3b3830352d544e454e4f504d4f43205455474e41543b4246393831,
0x3b3b3b3b3b4e3b3b3b3b3b4c3b303b6f4c3b3930352d544e454e4f504d4f43205455474e41543b4346393831,
0x3b3b3b3b3b4e3b3b3b3b3b4c3b303b6f4c3b3031352d544e454e4f504d4f43205455474e41543b4446393831,
0x3b3b3b3b3b4e3b3b3b3b3b4c3b303b6f4c3b3131352d544e454e4f504d4f43205455474e41543b4546393831,
0x3b3b3b3b3b4e3b3b3b3b3b4c3b303b6f4c3b3231352d544e454e4f504d4f43205455474e41543b4646393831,
0x3b3b3b3b3b4e3b3b3b3b3b4c3b303b6f4c3b3331352d544e454e4f504d4f43205455474e41543b3030413831,
0x3b3b3b3b3b4e3b3b3b3b3b4c3b303b6f4c3b3431352d544e454e4f504d4f43205455474e41543b3130413831,
0x3b3b3b3b3b4e3b3b3b3b3b4c3b303b6f4c3b3531352d544e454e4f504d4f43205455474e41543b3230413831,
0x3b3b3b3b3b4e3b3b3b3b3b4c3b303b6f4c3b3631352d544e454e4f504d4f43205455474e41543b3330413831,
0x3b3b3b3b3b4e3b3b3b3b3b4c3b303b6f4c3b3731352d544e454e4f504d4f43205455474e41543b3430413831,
0x3b3b3b3b3b4e3b3b3b3b3b4c3b303b6f4c3b3831352d544e454e4f504d4f43205455474e41543b3530413831,
0x3b3b3b3b3b4e3b3b3b3b3b4c3b303b6f4c3b3931352d544e454e4f504d4f43205455474e41543b3630413831,
0x3b3b3b3b3b4e3b3b3b3b3b4c3b303b6f4c3b3032352d544e454e4f504d4f43205455474e41543b3730413831,
0x3b3b3b3b3b4e3b3b3b3b3b4c3b303b6f4c3b3132352d544e454e4f504d4f43205455474e41543b3830413831,
0x3b3b3b3b3b4e3b3b3b3b3b4c3b303b6f4c3b3232352d544e454e4f504d4f43205455474e41543b3930413831,
0x3b3b3b3b3b4e3b3b3b3b3b4c3b303b6f4c3b3332352d544e454e4f504d4f43205455474e41543b4130413831,
0x3b3b3b3b3b4e3b3b3b3b3b4c3b303b6f4c3b3432352d544e454e4f504d4f43205455474e41543b4230413831,
0x3b3b3b3b3b4e3b3b3b3b3b4c3b303b6f4c3b3532352d544e454e4f504d4f43205455474e41543b4330413831,
0x3b3b3b3b3b4e3b3b3b3b3b4c3b303b6f4c3b3632352d544e454e4f504d4f43205455474e41543b4430413831,
0x3b3b3b3b3b4e3b3b3b3b3b4c3b303b6f4c3b3732352d544e454e4f504d4f43205455474e41543b4530413831,
0x3b3b3b3b3b4e3b3b3b3b3b4c3b303b6f4c3b3832352d544e454e4f504d4f43205455474e41543b4630413831,
0x3b3b3b3b3b4e3b3b3b3b3b4c3b303b6f4c3b3932352d544e454e4f504d4f43205455474e41543b3031413831,
0x3b3b3b3b3b4e3b3b3b3b3b4c3b303b6f4c3b3033352d544e454e4f504d4f43205455474e41543b3131413831,
0x3b3b3b3b3b4e3b3b3b3b3b4c3b303b6f4c3b3133352d544e454e4f504d4f43205455474e41543b3231413831,
0x3b3b3b3b3b4e3b3b3b3b3b4c3b303b6f4c3b3233352d544e454e4f504d4f43205455474e41543b3331413831,
0x3b3b3b3b3b4e3b3b3b3b3b4c3b303b6f4c3b3333352d544e454e4f504d4f43205455474e41543b3431413831,
0x3b3b3b3b3b4e3b3b3b3b3b4c3b303b6f4c3b3433352d544e454e4f504d4f43205455474e41543b3531413831,
0x3b3b3b3b3b4e3b3b3b3b3b4c3b303b6f4c3b3533352d544e454e4f504d4f43205455474e41543b3631413831,
0x3b3b3b3b3b4e3b3b3b3b3b4c3b303b6f4c3b3633352d544e454e4f504d4f43205455474e41543b3731413831,
0x3b3b3b3b3b4e3b3b3b3b3b4c3b303b6f4c3b3733352d544e454e4f504d4f43205455474e41543b3831413831,
0x3b3b3b3b3b4e3b3b3b3b3b4c3b303b6f4c3b3833352d544e454e4f504d4f43205455474e41543b3931413831,
0x3b3b3b3b3b4e3b3b3b3b3b4c3b303b6f4c3b3933352d544e454e4f504d4f43205455474e41543b4131413831,
0x3b3b3b3b3b4e3b3b3b3b3b4c3b303b6f4c3b3034352d544e454e4f504d4f43205455474e41543b4231413831,
0x3b3b3b3b3b4e3b3b3b3b3b4c3b303b6f4c3b3134352d544e454e4f504d4f43205455474e41543b4331413831,
0x3b3b3b3b3b4e3b3b3b3b3b4c3b303b6f4c3b3234352d544e454e4f504d4f43205455474e41543b4431413831,
0x3b3b3b3b3b4e3b3b3b3b3b4c3b303b6f4c3b3334352d544e454e4f504d4f43205455474e41543b4531413831,
0x3b3b3b3b3b4e3b3b3b3b3b4c3b303b6f4c3b3434352d544e454e4f504d4f43205455474e41543b4631413831,
0x3b3b3b3b3b4e3b3b3b3b3b4c3b303b6f4c3b3534352d544e454e4f504d4f43205455474e41543b3032413831,
0x3b3b3b3b3b4e3b3b3b3b3b4c3b303b6f4c3b3634352d544e454e4f504d4f43205455474e41543b3132413831,
0x3b3b3b3b3b4e3b3b3b3b3b4c3b303b6f4c3b3734352d544e454e4f504d4f43205455474e41543b3232413831,
0x3b3b3b3b3b4e3b3b3b3b3b4c3b303b6f4c3b3834352d544e454e4f504d4f43205455474e41543b3332413831,
0x3b3b3b3b3b4e3b3b3b3b3b4c3b303b6f4c3b3934352d544e454e4f504d4f43205455474e41543b3432413831,
0x3b3b3b3b3b4e3b3b3b3b3b4c3b303b6f4c3b3035352d544e454e4f504d4f43205455474e41543b3532413831,
0x3b3b3b3b3b4e3b3b3b3b3b4c3b303b6f4c3b3135352d544e454e4f504d4f43205455474e41543b3632413831,
0x3b3b3b3b3b4e3b3b3b3b3b4c3b303b6f4c3b3235352d544e454e4f504d4f43205455474e41543b3732413831,
0x3b3b3b3b3b4e3b3b3b3b3b4c3b303b6f4c3b3335352d544e454e4f504d4f43205455474e41543b3832413831,
0x3b3b3b3b3b4e3b3b3b3b3b4c3b303b6f4c3b3435352d544e454e4f504d4f43205455474e41543b3932413831,
0x3b3b3b3b3b4e3b3b3b3b3b4c3b303b6f4c3b3535352d544e454e4f504d4f43205455474e41543b4132413831,
0x3b3b3b3b3b4e3b3b3b3b3b4c3b303b6f4c3b3635352d544e454e4f504d4f43205455474e41543b4232413831,
0x3b3b3b3b3b4e3b3b3b3b3b4c3b303b6f4c3b3735352d544e454e4f504d4f43205455474e41543b4332413831,
0x3b3b3b3b3b4e3b3b3b3b3b4c3b303b6f4c3b3835352d544e454e4f504d4f43205455474e41543b4432413831,
0x3b3b3b3b3b4e3b3b3b3b3b4c3b303b6f4c3b3935352d544e454e4f504d4f43205455474e41543b4532413831,
0x3b3b3b3b3b4e3b3b3b3b3b4c3b303b6f4c3b3036352d544e454e4f504d4f43205455474e41543b4632413831,
0x3b3b3b3b3b4e3b3b3b3b3b4c3b303b6f4c3b3136352d544e454e4f504d4f43205455474e41543b3033413831,
0x3b3b3b3b3b4e3b3b3b3b3b4c3b303b6f4c3b3236352d544e454e4f504d4f43205455474e41543b3133413831,
0x3b3b3b3b3b4e3b3b3b3b3b4c3b303b6f4c3b3336352d544e454e4f504d4f43205455474e41543b3233413831,
0x3b3b3b3b3b4e3b3b3b3b3b4c3b303b6f4c3b3436352d544e454e4f504d4f43205455474e41543b3333413831,
0x3b3b3b3b3b4e3b3b3b3b3b4c3b303b6f4c3b3536352d544e454e4f504d4f43205455474e41543b3433413831,
0x3b3b3b3b3b4e3b3b3b3b3b4c3b303b6f4c3b3636352d544e454e4f504d4f43205455474e41543b3533413831,
0x3b3b3b3b3b4e3b3b3b3b3b4c3b303b6f4c3b3736352d544e454e4f504d4f43205455474e41543b3633413831,
0x3b3b3b3b3b4e3b3b3b3b3b4c3b303b6f4c3b3836352d544e454e4f504d4f43205455474e41543b3733413831,
0x3b3b3b3b3b4e3b3b3b3b3b4c3b303b6f4c3b3936352d544e454e4f504d4f43205455474e41543b3833413831,
0x3b3b3b3b3b4e3b3b3b3b3b4c3b303b6f4c3b3037352d544e454e4f504d4f43205455474e41543b3933413831,
0x3b3b3b3b3b4e3b3b3b3b3b4c3b303b6f4c3b3137352d544e454e4f504d4f43205455474e41543b4133413831,
0x3b3b3b3b3b4e3b3b3b3b3b4c3b303b6f4c3b3237352d544e454e4f504d4f43205455474e41543b4233413831,
0x3b3b3b3b3b4e3b3b3b3b3b4c3b303b6f4c3b3337352d544e454e4f504d4f43205455474e41543b4333413831,
0x3b3b3b3b3b4e3b3b3b3b3b4c3b303b6f4c3b3437352d544e454e4f504d4f43205455474e41543b4433413831,
0x3b3b3b3b3b4e3b3b3b3b3b4c3b303b6f4c3b3537352d544e454e4f504d4f43205455474e41543b4533413831,
0x3b3b3b3b3b4e3b3b3b3b3b4c3b303b6f4c3b3637352d544e454e4f504d4f43205455474e41543b4633413831,
0x3b3b3b3b3b4e3b3b3b3b3b4c3b303b6f4c3b3737352d544e454e4f504d4f43205455474e41543b3034413831,
0x3b3b3b3b3b4e3b3b3b3b3b4c3b303b6f4c3b3837352d544e454e4f504d4f43205455474e41543b3134413831,
0x3b3b3b3b3b4e3b3b3b3b3b4c3b303b6f4c3b3937352d544e454e4f504d4f43205455474e41543b3234413831,
0x3b3b3b3b3b4e3b3b3b3b3b4c3b303b6f4c3b3038352d544e454e4f504d4f43205455474e41543b3334413831,
0x3b3b3b3b3b4e3b3b3b3b3b4c3b303b6f4c3b3138352d544e454e4f504d4f43205455474e41543b3434413831,
0x3b3b3b3b3b4e3b3b3b3b3b4c3b303b6f4c3b3238352d544e454e4f504d4f43205455474e41543b3534413831,
0x3b3b3b3b3b4e3b3b3b3b3b4c3b303b6f4c3b3338352d544e454e4f504d4f43205455474e41543b3634413831,
0x3b3b3b3b3b4e3b3b3b3b3b4c3b303b6f4c3b3438352d544e454e4f504d4f43205455474e41543b3734413831,
0x3b3b3b3b3b4e3b3b3b3b3b4c3b303b6f4c3b3538352d544e454e4f504d4f43205455474e41543b3834413831,
0x3b3b3b3b3b4e3b3b3b3b3b4c3b303b6f4c3b3638352d544e454e4f504d4f43205455474e41543b3934413831,
0x3b3b3b3b3b4e3b3b3b3b3b4c3b303b6f4c3b3738352d544e454e4f504d4f43205455474e41543b4134413831,
0x3b3b3b3b3b4e3b3b3b3b3b4c3b303b6f4c3b3838352d544e454e4f504d4f43205455474e41543b4234413831,
0x3b3b3b3b3b4e3b3b3b3b3b4c3b303b6f4c3b3938352d544e454e4f504d4f43205455474e41543b4334413831,
0x3b3b3b3b3b4e3b3b3b3b3b4c3b303b6f4c3b3039352d544e454e4f504d4f43205455474e41543b4434413831,
0x3b3b3b3b3b4e3b3b3b3b3b4c3b303b6f4c3b3139352d544e454e4f504d4f43205455474e41543b4534413831,
0x3b3b3b3b3b4e3b3b3b3b3b4c3b303b6f4c3b3239352d544e454e4f504d4f43205455474e41543b4634413831,
0x3b3b3b3b3b4e3b3b3b3b3b4c3b303b6f4c3b3339352d544e454e4f504d4f43205455474e41543b3035413831,
0x3b3b3b3b3b4e3b3b3b3b3b4c3b303b6f4c3b3439352d544e454e4f504d4f43205455474e41543b3135413831,
0x3b3b3b3b3b4e3b3b3b3b3b4c3b303b6f4c3b3539352d544e454e4f504d4f43205455474e41543b3235413831,
0x3b3b3b3b3b4e3b3b3b3b3b4c3b303b6f4c3b3639352d544e454e4f504d4f43205455474e41543b3335413831,
0x3b3b3b3b3b4e3b3b3b3b3b4c3b303b6f4c3b3739352d544e454e4f504d4f43205455474e41543b3435413831,
0x3b3b3b3b3b4e3b3b3b3b3b4c3b303b6f4c3b3839352d544e454e4f504d4f43205455474e41543b3535413831,
0x3b3b3b3b3b4e3b3b3b3b3b4c3b303b6f4c3b3939352d544e454e4f504d4f43205455474e41543b3635413831,
0x3b3b3b3b3b4e3b3b3b3b3b4c3b303b6f4c3b3030362d544e454e4f504d4f43205455474e41543b3735413831,
0x3b3b3b3b3b4e3b3b3b3b3b4c3b303b6f4c3b3130362d544e454e4f504d4f43205455474e41543b3835413831,
0x3b3b3b3b3b4e3b3b3b3b3b4c3b303b6f4c3b3230362d544e454e4f504d4f43205455474e41543b3935413831,
0x3b3b3b3b3b4e3b3b3b3b3b4c3b303b6f4c3b3330362d544e454e4f504d4f43205455474e41543b4135413831,
0x3b3b3b3b3b4e3b3b3b3b3b4c3b303b6f4c3b3430362d544e454e4f504d4f43205455474e41543b4235413831,
0x3b3b3b3b3b4e3b3b3b3b3b4c3b303b6f4c3b3530362d544e454e4f504d4f43205455474e41543b4335413831,
0x3b3b3b3b3b4e3b3b3b3b3b4c3b303b6f4c3b3630362d544e454e4f504d4f43205455474e41543b4435413831,
0x3b3b3b3b3b4e3b3b3b3b3b4c3b303b6f4c3b3730362d544e454e4f504d4f43205455474e41543b4535413831,
0x3b3b3b3b3b4e3b3b3b3b3b4c3b303b6f4c3b3830362d544e454e4f504d4f43205455474e41543b4635413831,
0x3b3b3b3b3b4e3b3b3b3b3b4c3b303b6f4c3b3930362d544e454e4f504d4f43205455474e41543b3036413831,
0x3b3b3b3b3b4e3b3b3b3b3b4c3b303b6f4c3b3031362d544e454e4f504d4f43205455474e41543b3136413831,
0x3b3b3b3b3b4e3b3b3b3b3b4c3b303b6f4c3b3131362d544e454e4f504d4f43205455474e41543b3236413831,
0x3b3b3b3b3b4e3b3b3b3b3b4c3b303b6f4c3b3231362d544e454e4f504d4f43205455474e41543b3336413831,
0x3b3b3b3b3b4e3b3b3b3b3b4c3b303b6f4c3b3331362d544e454e4f504d4f43205455474e41543b3436413831,
0x3b3b3b3b3b4e3b3b3b3b3b4c3b303b6f4c3b3431362d544e454e4f504d4f43205455474e41543b3536413831,
0x3b3b3b3b3b4e3b3b3b3b3b4c3b303b6f4c3b3531362d544e454e4f504d4f43205455474e41543b3636413831,
0x3b3b3b3b3b4e3b3b3b3b3b4c3b303b6f4c3b3631362d544e454e4f504d4f43205455474e41543b3736413831,
0x3b3b3b3b3b4e3b3b3b3b3b4c3b303b6f4c3b3731362d544e454e4f504d4f43205455474e41543b3836413831,
0x3b3b3b3b3b4e3b3b3b3b3b4c3b303b6f4c3b3831362d544e454e4f504d4f43205455474e41543b3936413831,
0x3b3b3b3b3b4e3b3b3b3b3b4c3b303b6f4c3b3931362d544e454e4f504d4f43205455474e41543b4136413831,
0x3b3b3b3b3b4e3b3b3b3b3b4c3b303b6f4c3b3032362d544e454e4f504d4f43205455474e41543b4236413831,
0x3b3b3b3b3b4e3b3b3b3b3b4c3b303b6f4c3b3132362d544e454e4f504d4f43205455474e41543b4336413831,
0x3b3b3b3b3b4e3b3b3b3b3b4c3b303b6f4c3b3232362d544e454e4f504d4f43205455474e41543b4436413831,
0x3b3b3b3b3b4e3b3b3b3b3b4c3b303b6f4c3b3332362d544e454e4f504d4f43205455474e41543b4536413831,
0x3b3b3b3b3b4e3b3b3b3b3b4c3b303b6f4c3b3432362d544e454e4f504d4f43205455474e41543b4636413831,
0x3b3b3b3b3b4e3b3b3b3b3b4c3b303b6f4c3b3532362d544e454e4f504d4f43205455474e41543b3037413831,
0x3b3b3b3b3b4e3b3b3b3b3b4c3b303b6f4c3b3632362d544e454e4f504d4f43205455474e41543b3137413831,
0x3b3b3b3b3b4e3b3b3b3b3b4c3b303b6f4c3b3732362d544e454e4f504d4f43205455474e41543b3237413831,
0x3b3b3b3b3b4e3b3b3b3b3b4c3b303b6f4c3b3832362d544e454e4f504d4f43205455474e41543b3337413831,
0x3b3b3b3b3b4e3b3b3b3b3b4c3b303b6f4c3b3932362d544e454e4f504d4f43205455474e41543b3437413831,
0x3b3b3b3b3b4e3b3b3b3b3b4c3b303b6f4c3b3033362d544e454e4f504d4f43205455474e41543b3537413831,
0x3b3b3b3b3b4e3b3b3b3b3b4c3b303b6f4c3b3133362d544e454e4f504d4f43205455474e41543b3637413831,
0x3b3b3b3b3b4e3b3b3b3b3b4c3b303b6f4c3b3233362d544e454e4f504d4f43205455474e41543b3737413831,
0x3b3b3b3b3b4e3b3b3b3b3b4c3b303b6f4c3b3333362d544e454e4f504d4f43205455474e41543b3837413831,
0x3b3b3b3b3b4e3b3b3b3b3b4c3b303b6f4c3b3433362d544e454e4f504d4f43205455474e41543b3937413831,
0x3b3b3b3b3b4e3b3b3b3b3b4c3b303b6f4c3b3533362d544e454e4f504d4f43205455474e41543b4137413831,
0x3b3b3b3b3b4e3b3b3b3b3b4c3b303b6f4c3b3633362d544e454e4f504d4f43205455474e41543b4237413831,
0x3b3b3b3b3b4e3b3b3b3b3b4c3b303b6f4c3b3733362d544e454e4f504d4f43205455474e41543b4337413831,
0x3b3b3b3b3b4e3b3b3b3b3b4c3b303b6f4c3b3833362d544e454e4f504d4f43205455474e41543b4437413831,
0x3b3b3b3b3b4e3b3b3b3b3b4c3b303b6f4c3b3933362d544e454e4f504d4f43205455474e41543b4537413831,
0x3b3b3b3b3b4e3b3b3b3b3b4c3b303b6f4c3b3034362d544e454e4f504d4f43205455474e41543b4637413831,
0x3b3b3b3b3b4e3b3b3b3b3b4c3b303b6f4c3b3134362d544e454e4f504d4f43205455474e41543b3038413831,
0x3b3b3b3b3b4e3b3b3b3b3b4c3b303b6f4c3b3234362d544e454e4f504d4f43205455474e41543b3138413831,
0x3b3b3b3b3b4e3b3b3b3b3b4c3b303b6f4c3b3334362d544e454e4f504d4f43205455474e41543b3238413831,
0x3b3b3b3b3b4e3b3b3b3b3b4c3b303b6f4c3b3434362d544e454e4f504d4f43205455474e41543b3338413831,
0x3b3b3b3b3b4e3b3b3b3b3b4c3b303b6f4c3b3534362d544e454e4f504d4f43205455474e41543b3438413831,
0x3b3b3b3b3b4e3b3b3b3b3b4c3b303b6f4c3b3634362d544e454e4f504d4f43205455474e41543b3538413831,
0x3b3b3b3b3b4e3b3b3b3b3b4c3b303b6f4c3b3734362d544e454e4f504d4f43205455474e41543b3638413831,
0x3b3b3b3b3b4e3b3b3b3b3b4c3b303b6f4c3b3834362d544e454e4f504d4f43205455474e41543b3738413831,
0x3b3b3b3b3b4e3b3b3b3b3b4c3b303b6f4c3b3934362d544e454e4f504d4f43205455474e41543b3838413831,
0x3b3b3b3b3b4e3b3b3b3b3b4c3b303b6f4c3b3035362d544e454e4f504d4f43205455474e41543b3938413831,
0x3b3b3b3b3b4e3b3b3b3b3b4c3b303b6f4c3b3135362d544e454e4f504d4f43205455474e41543b4138413831,
0x3b3b3b3b3b4e3b3b3b3b3b4c3b303b6f4c3b3235362d544e454e4f504d4f43205455474e41543b4238413831,
0x3b3b3b3b3b4e3b3b3b3b3b4c3b303b6f4c3b3335362d544e454e4f504d4f43205455474e41543b4338413831,
0x3b3b3b3b3b4e3b3b3b3b3b4c3b303b6f4c3b3435362d544e454e4f504d4f43205455474e41543b4438413831,
0x3b3b3b3b3b4e3b3b3b3b3b4c3b303b6f4c3b3535362d544e454e4f504d4f43205455474e41543b4538413831,
0x3b3b3b3b3b4e3b3b3b3b3b4c3b303b6f4c3b3635362d544e454e4f504d4f43205455474e41543b4638413831,
0x3b3b3b3b3b4e3b3b3b3b3b4c3b303b6f4c3b3735362d544e454e4f504d4f43205455474e41543b3039413831,
0x3b3b3b3b3b4e3b3b3b3b3b4c3b303b6f4c3b3835362d544e454e4f504d4f43205455474e41543b3139413831,
0x3b3b3b3b3b4e3b3b3b3b3b4c3b303b6f4c3b3935362d544e454e4f504d4f43205455474e41543b3239413831,
0x3b3b3b3b3b4e3b3b3b3b3b4c3b303b6f4c3b3036362d544e454e4f504d4f43205455474e41543b3339413831,
0x3b3b3b3b3b4e3b3b3b3b3b4c3b303b6f4c3b3136362d544e454e4f504d4f43205455474e41543b3439413831,
0x3b3b3b3b3b4e3b3b3b3b3b4c3b303b6f4c3b3236362d544e454e4f504d4f43205455474e41543b3539413831,
0x3b3b3b3b3b4e3b3b3b3b3b4c3b303b6f4c3b3336362d544e454e4f504d4f43205455474e41543b3639413831,
0x3b3b3b3b3b4e3b3b3b3b3b4c3b303b6f4c3b3436362d544e454e4f504d4f43205455474e41543b3739413831,
0x3b3b3b3b3b4e3b3b3b3b3b4c3b303b6f4c3b3536362d544e454e4f504d4f43205455474e41543b3839413831,
0x3b3b3b3b3b4e3b3b3b3b3b4c3b303b6f4c3b3636362d544e454e4f504d4f43205455474e41543b3939413831,
0x3b3b3b3b3b4e3b3b3b3b3b4c3b303b6f4c3b3736362d544e454e4f504d4f43205455474e41543b4139413831,
0x3b3b3b3b3b4e3b3b3b3b3b4c3b303b6f4c3b3836362d544e454e4f504d4f43205455474e41543b4239413831,
0x3b3b3b3b3b4e3b3b3b3b3b4c3b303b6f4c3b3936362d544e454e4f504d4f43205455474e41543b4339413831,
0x3b3b3b3b3b4e3b3b3b3b3b4c3b303b6f4c3b3037362d544e454e4f504d4f43205455474e41543b4439413831,
0x3b3b3b3b3b4e3b3b3b3b3b4c3b303b6f4c3b3137362d544e454e4f504d4f43205455474e41543b4539413831,
0x3b3b3b3b3b4e3b3b3b3b3b4c3b303b6f4c3b3237362d544e454e4f504d4f43205455474e41543b4639413831,
0x3b3b3b3b3b4e3b3b3b3b3b4c3b303b6f4c3b3337362d544e454e4f504d4f43205455474e41543b3041413831,
0x3b3b3b3b3b4e3b3b3b3b3b4c3b303b6f4c3b3437362d544e454e4f504d4f43205455474e41543b3141413831,
0x3b3b3b3b3b4e3b3b3b3b3b4c3b303b6f4c3b3537362d544e454e4f504d4f43205455474e41543b3241413831,
0x3b3b3b3b3b4e3b3b3b3b3b4c3b303b6f4c3b3637362d544e454e4f504d4f43205455474e41543b3341413831,
0x3b3b3b3b3b4e3b3b3b3b3b4c3b303b6f4c3b3737362d544e454e4f504d4f43205455474e41543b3441413831,
0x3b3b3b3b3b4e3b3b3b3b3b4c3b303b6f4c3b3837362d544e454e4f504d4f43205455474e41543b3541413831,
0x3b3b3b3b3b4e3b3b3b3b3b4c3b303b6f4c3b3937362d544e454e4f504d4f43205455474e41543b3641413831,
0x3b3b3b3b3b4e3b3b3b3b3b4c3b303b6f4c3b3038362d544e454e4f504d4f43205455474e41543b3741413831,
0x3b3b3b3b3b4e3b3b3b3b3b4c3b303b6f4c3b3138362d544e454e4f504d4f43205455474e41543b3841413831,
0x3b3b3b3b3b4e3b3b3b3b3b4c3b303b6f4c3b3238362d544e454e4f504d4f43205455474e41543b3941413831,
0x3b3b3b3b3b4e3b3b3b3b3b4c3b303b6f4c3b3338362d544e454e4f504d4f43205455474e41543b4141413831,
0x3b3b3b3b3b4e3b3b3b3b3b4c3b303b6f4c3b3438362d544e454e4f504d4f43205455474e41543b4241413831,
0x3b3b3b3b3b4e3b3b3b3b3b4c3b303b6f4c3b3538362d544e454e4f504d4f43205455474e41543b4341413831,
0x3b3b3b3b3b4e3b3b3b3b3b4c3b303b6f4c3b3638362d544e454e4f504d4f43205455474e41543b4441413831,
0x3b3b3b3b3b4e3b3b3b3b3b4c3b303b6f4c3b3738362d544e454e4f504d4f43205455474e41543b4541413831,
0x3b3b3b3b3b4e3b3b3b3b3b4c3b303b6f4c3b3838362d544e454e4f504d4f43205455474e41543b4641413831,
0x3b3b3b3b3b4e3b3b3b3b3b4c3b303b6f4c3b3938362d544e454e4f504d4f43205455474e41543b3042413831,
0x3b3b3b3b3b4e3b3b3b3b3b4c3b303b6f4c3b3039362d544e454e4f504d4f43205455474e41543b3142413831,
0x3b3b3b3b3b4e3b3b3b3b3b4c3b303b6f4c3b3139362d544e454e4f504d4f43205455474e41543b3242413831,
0x3b3b3b3b3b4e3b3b3b3b3b4c3b303b6f4c3b3239362d544e454e4f504d4f43205455474e41543b3342413831,
0x3b3b3b3b3b4e3b3b3b3b3b4c3b303b6f4c3b3339362d544e454e4f504d4f43205455474e41543b3442413831,
0x3b3b3b3b3b4e3b3b3b3b3b4c3b303b6f4c3b3439362d544e454e4f504d4f43205455474e41543b3542413831,
0x3b3b3b3b3b4e3b3b3b3b3b4c3b303b6f4c3b3539362d544e454e4f504d4f43205455474e41543b3642413831,
0x3b3b3b3b3b4e3b3b3b3b3b4c3b303b6f4c3b3639362d544e454e4f504d4f43205455474e41543b3742413831,
0x3b3b3b3b3b4e3b3b3b3b3b4c3b303b6f4c3b3739362d544e454e4f504d4f43205455474e41543b3842413831,
0x3b3b3b3b3b4e3b3b3b3b3b4c3b303b6f4c3b3839362d544e454e4f504d4f43205455474e41543b3942413831,
0x3b3b3b3b3b4e3b3b3b3b3b4c3b303b6f4c3b3939362d544e454e4f504d4f43205455474e41543b4142413831,
0x3b3b3b3b3b4e3b3b3b3b3b4c3b303b6f4c3b3030372d544e454e4f504d4f43205455474e41543b4242413831,
0x3b3b3b3b3b4e3b3b3b3b3b4c3b303b6f4c3b3130372d544e454e4f504d4f43205455474e41543b4342413831,
0x3b3b3b3b3b4e3b3b3b3b3b4c3b303b6f4c3b3230372d544e454e4f504d4f43205455474e41543b4442413831,
0x3b3b3b3b3b4e3b3b3b3b3b4c3b303b6f4c3b3330372d544e454e4f504d4f43205455474e41543b4542413831,
0x3b3b3b3b3b4e3b3b3b3b3b4c3b303b6f4c3b3430372d544e454e4f504d4f43205455474e41543b4642413831,
0x3b3b3b3b3b4e3b3b3b3b3b4c3b303b6f4c3b3530372d544e454e4f504d4f43205455474e41543b3043413831,
0x3b3b3b3b3b4e3b3b3b3b3b4c3b303b6f4c3b3630372d544e454e4f504d4f43205455474e41543b3143413831,
0x3b3b3b3b3b4e3b3b3b3b3b4c3b303b6f4c3b3730372d544e454e4f504d4f43205455474e41543b3243413831,
0x3b3b3b3b3b4e3b3b3b3b3b4c3b303b6f4c3b3830372d544e454e4f504d4f43205455474e41543b3343413831,
0x3b3b3b3b3b4e3b3b3b3b3b4c3b303b6f4c3b3930372d544e454e4f504d4f43205455474e41543b3443413831,
0x3b3b3b3b3b4e3b3b3b3b3b4c3b303b6f4c3b3031372d544e454e4f504d4f43205455474e41543b3543413831,
0x3b3b3b3b3b4e3b3b3b3b3b4c3b303b6f4c3b3131372d544e454e4f504d4f43205455474e41543b3643413831,
0x3b3b3b3b3b4e3b3b3b3b3b4c3b303b6f4c3b3231372d544e454e4f504d4f43205455474e41543b3743413831,
0x3b3b3b3b3b4e3b3b3b3b3b4c3b303b6f4c3b3331372d544e454e4f504d4f43205455474e41543b3843413831,
0x3b3b3b3b3b4e3b3b3b3b3b4c3b303b6f4c3b3431372d544e454e4f504d4f43205455474e41543b3943413831,
0x3b3b3b3b3b4e3b3b3b3b3b4c3b303b6f4c3b3531372d544e454e4f504d4f43205455474e41543b4143413831,
0x3b3b3b3b3b4e3b3b3b3b3b4c3b303b6f4c3b3631372d544e454e4f504d4f43205455474e41543b4243413831,
0x3b3b3b3b3b4e3b3b3b3b3b4c3b303b6f4c3b3731372d544e454e4f504d4f43205455474e41543b4343413831,
0x3b3b3b3b3b4e3b3b3b3b3b4c3b303b6f4c3b3831372d544e454e4f504d4f43205455474e41543b4443413831,
0x3b3b3b3b3b4e3b3b3b3b3b4c3b303b6f4c3b3931372d544e454e4f504d4f43205455474e41543b4543413831,
0x3b3b3b3b3b4e3b3b3b3b3b4c3b303b6f4c3b3032372d544e454e4f504d4f43205455474e41543b4643413831,
0x3b3b3b3b3b4e3b3b3b3b3b4c3b303b6f4c3b3132372d544e454e4f504d4f43205455474e41543b3044413831,
0x3b3b3b3b3b4e3b3b3b3b3b4c3b303b6f4c3b3232372d544e454e4f504d4f43205455474e41543b3144413831,
0x3b3b3b3b3b4e3b3b3b3b3b4c3b303b6f4c3b3332372d544e454e4f504d4f43205455474e41543b3244413831,
0x3b3b3b3b3b4e3b3b3b3b3b4c3b303b6f4c3b3432372d544e454e4f504d4f43205455474e41543b3344413831,
0x3b3b3b3b3b4e3b3b3b3b3b4c3b303b6f4c3b3532372d544e454e4f504d4f43205455474e41543b3444413831,
0x3b3b3b3b3b4e3b3b3b3b3b4c3b303b6f4c3b3632372d544e454e4f504d4f43205455474e41543b3544413831,
0x3b3b3b3b3b4e3b3b3b3b3b4c3b303b6f4c3b3732372d544e454e4f504d4f43205455474e41543b3644413831,
0x3b3b3b3b3b4e3b3b3b3b3b4c3b303b6f4c3b3832372d544e454e4f504d4f43205455474e41543b3744413831,
0x3b3b3b3b3b4e3b3b3b3b3b4c3b303b6f4c3b3932372d544e454e4f504d4f43205455474e41543b3844413831,
0x3b3b3b3b3b4e3b3b3b3b3b4c3b303b6f4c3b3033372d544e454e4f504d4f43205455474e41543b3944413831,
0x3b3b3b3b3b4e3b3b3b3b3b4c3b303b6f4c3b3133372d544e454e4f504d4f43205455474e41543b4144413831,
0x3b3b3b3b3b4e3b3b3b3b3b4c3b303b6f4c3b3233372d544e454e4f504d4f43205455474e41543b4244413831,
0x3b3b3b3b3b4e3b3b3b3b3b4c3b303b6f4c3b3333372d544e454e4f504d4f43205455474e41543b4344413831,
0x3b3b3b3b3b4e3b3b3b3b3b4c3b303b6f4c3b3433372d544e454e4f504d4f43205455474e41543b4444413831,
0x3b3b3b3b3b4e3b3b3b3b3b4c3b303b6f4c3b3533372d544e454e4f504d4f43205455474e41543b4544413831,
0x3b3b3b3b3b4e3b3b3b3b3b4c3b303b6f4c3b3633372d544e454e4f504d4f43205455474e41543b4644413831,
0x3b3b3b3b3b4e3b3b3b3b3b4c3b303b6f4c3b3733372d544e454e4f504d4f43205455474e41543b3045413831,
0x3b3b3b3b3b4e3b3b3b3b3b4c3b303b6f4c3b3833372d544e454e4f504d4f43205455474e41543b3145413831,
0x3b3b3b3b3b4e3b3b3b3b3b4c3b303b6f4c3b3933372d544e454e4f504d4f43205455474e41543b3245413831,
0x3b3b3b3b3b4e3b3b3b3b3b4c3b303b6f4c3b3034372d544e454e4f504d4f43205455474e41543b3345413831,
0x3b3b3b3b3b4e3b3b3b3b3b4c3b303b6f4c3b3134372d544e454e4f504d4f43205455474e41543b3445413831]

/-- src/u5e/props/UnicodeData.txt lines 24833-25088. -/
def rawUcd97 : List Nat := [
0x3b3b3b3b3b4e3b3b3b3b3b4c3b303b6f4c3b3234372d544e454e4f504d4f43205455474e41543b3545413831,
0x3b3b3b3b3b4e3b3b3b3b3b4c3b303b6f4c3b3334372d544e454e4f504d4f43205455474e41543b3645413831,
0x3b3b3b3b3b4e3b3b3b3b3b4c3b303b6f4c3b3434372d544e454e4f504d4f43205455474e41543b3745413831,
0x3b3b3b3b3b4e3b3b3b3b3b4c3b303b6f4c3b3534372d544e454e4f504d4f43205455474e41543b3845413831,
0x3b3b3b3b3b4e3b3b3b3b3b4c3b303b6f4c3b3634372d544e454e4f504d4f43205455474e41543b3945413831,
0x3b3b3b3b3b4e3b3b3b3b3b4c3b303b6f4c3b3734372d544e454e4f504d4f43205455474e41543b4145413831,
0x3b3b3b3b3b4e3b3b3b3b3b4c3b303b6f4c3b3834372d544e454e4f504d4f43205455474e41543b4245413831,
0x3b3b3b3b3b4e3b3b3b3b3b4c3b303b6f4c3b3934372d544e454e4f504d4f43205455474e41543b4345413831,
0x3b3b3b3b3b4e3b3b3b3b3b4c3b303b6f4c3b3035372d544e454e4f504d4f43205455474e41543b4445413831,
0x3b3b3b3b3b4e3b3b3b3b3b4c3b303b6f4c3b3135372d544e454e4f504d4f43205455474e41543b4545413831,
0x3b3b3b3b3b4e3b3b3b3b3b4c3b303b6f4c3b3235372d544e454e4f504d4f43205455474e41543b4645413831,
0x3b3b3b3b3b4e3b3b3b3b3b4c3b303b6f4c3b3335372d544e454e4f504d4f43205455474e41543b3046413831,
0x3b3b3b3b3b4e3b3b3b3b3b4c3b303b6f4c3b3435372d544e454e4f504d4f43205455474e41543b3146413831,
0x3b3b3b3b3b4e3b3b3b3b3b4c3b303b6f4c3b3535372d544e454e4f504d4f43205455474e41543b3246413831,
0x3b3b3b3b3b4e3b3b3b3b3b4c3b303b6f4c3b4520434941484352412052455454454c20414e414b4154414b3b3030304231,
0x3b3b3b3b3b4e3b3b3b3b3b4c3b303b6f4c3b455920434941484352412052455454454c20414e4147415249483b3130304231,
0x3b3b3b3b3b4e3b3b3b3b3b4c3b303b6f4c3b482052455454454c204e41594f4c5055443b3030434231,
0x3b3b3b3b3b4e3b3b3b3b3b4c3b303b6f4c3b582052455454454c204e41594f4c5055443b3130434231,
0x3b3b3b3b3b4e3b3b3b3b3b4c3b303b6f4c3b502052455454454c204e41594f4c5055443b3230434231,
0x3b3b3b3b3b4e3b3b3b3b3b4c3b303b6f4c3b542052455454454c204e41594f4c5055443b3330434231,
0x3b3b3b3b3b4e3b3b3b3b3b4c3b303b6f4c3b462052455454454c204e41594f4c5055443b3430434231,
0x3b3b3b3b3b4e3b3b3b3b3b4c3b303b6f4c3b4b2052455454454c204e41594f4c5055443b3530434231,
0x3b3b3b3b3b4e3b3b3b3b3b4c3b303b6f4c3b4c2052455454454c204e41594f4c5055443b3630434231,
0x3b3b3b3b3b4e3b3b3b3b3b4c3b303b6f4c3b422052455454454c204e41594f4c5055443b3730434231,
0x3b3b3b3b3b4e3b3b3b3b3b4c3b303b6f4c3b442052455454454c204e41594f4c5055443b3830434231,
0x3b3b3b3b3b4e3b3b3b3b3b4c3b303b6f4c3b562052455454454c204e41594f4c5055443b3930434231,
0x3b3b3b3b3b4e3b3b3b3b3b4c3b303b6f4c3b472052455454454c204e41594f4c5055443b4130434231,
0x3b3b3b3b3b4e3b3b3b3b3b4c3b303b6f4c3b522052455454454c204e41594f4c5055443b4230434231,
0x3b3b3b3b3b4e3b3b3b3b3b4c3b303b6f4c3b4e20502052455454454c204e41594f4c5055443b4330434231,
0x3b3b3b3b3b4e3b3b3b3b3b4c3b303b6f4c3b5320442052455454454c204e41594f4c5055443b4430434231,
0x3b3b3b3b3b4e3b3b3b3b3b4c3b303b6f4c3b4e20462052455454454c204e41594f4c5055443b4530434231,
0x3b3b3b3b3b4e3b3b3b3b3b4c3b303b6f4c3b4d204b2052455454454c204e41594f4c5055443b4630434231,
0x3b3b3b3b3b4e3b3b3b3b3b4c3b303b6f4c3b5320522052455454454c204e41594f4c5055443b3031434231,
0x3b3b3b3b3b4e3b3b3b3b3b4c3b303b6f4c3b48542052455454454c204e41594f4c5055443b3131434231,
0x3b3b3b3b3b4e3b3b3b3b3b4c3b303b6f4c3b4844204e414f4c532052455454454c204e41594f4c5055443b3231434231,
0x3b3b3b3b3b4e3b3b3b3b3b4c3b303b6f4c3b48442052455454454c204e41594f4c5055443b3331434231,
0x3b3b3b3b3b4e3b3b3b3b3b4c3b303b6f4c3b4b4b2052455454454c204e41594f4c5055443b3431434231,
0x3b3b3b3b3b4e3b3b3b3b3b4c3b303b6f4c3b4a204e414f4c532052455454454c204e41594f4c5055443b3531434231,
0x3b3b3b3b3b4e3b3b3b3b3b4c3b303b6f4c3b4c482052455454454c204e41594f4c5055443b3631434231,
0x3b3b3b3b3b4e3b3b3b3b3b4c3b303b6f4c3b484c2052455454454c204e41594f4c5055443b3731434231,
0x3b3b3b3b3b4e3b3b3b3b3b4c3b303b6f4c3b48522052455454454c204e41594f4c5055443b3831434231,
0x3b3b3b3b3b4e3b3b3b3b3b4c3b303b6f4c3b4d2052455454454c204e41594f4c5055443b3931434231,
0x3b3b3b3b3b4e3b3b3b3b3b4c3b303b6f4c3b4e2052455454454c204e41594f4c5055443b4131434231,
0x3b3b3b3b3b4e3b3b3b3b3b4c3b303b6f4c3b4a2052455454454c204e41594f4c5055443b4231434231,
0x3b3b3b3b3b4e3b3b3b3b3b4c3b303b6f4c3b532052455454454c204e41594f4c5055443b4331434231,
0x3b3b3b3b3b4e3b3b3b3b3b4c3b303b6f4c3b4e204d2052455454454c204e41594f4c5055443b4431434231,
0x3b3b3b3b3b4e3b3b3b3b3b4c3b303b6f4c3b4d204e2052455454454c204e41594f4c5055443b4531434231,
0x3b3b3b3b3b4e3b3b3b3b3b4c3b303b6f4c3b4d204a2052455454454c204e41594f4c5055443b4631434231,
0x3b3b3b3b3b4e3b3b3b3b3b4c3b303b6f4c3b4a20532052455454454c204e41594f4c5055443b3032434231,
0x3b3b3b3b3b4e3b3b3b3b3b4c3b303b6f4c3b544f442048544957204d2052455454454c204e41594f4c5055443b3132434231,
0x3b3b3b3b3b4e3b3b3b3b3b4c3b303b6f4c3b544f442048544957204e2052455454454c204e41594f4c5055443b3232434231,
0x3b3b3b3b3b4e3b3b3b3b3b4c3b303b6f4c3b544f442048544957204a2052455454454c204e41594f4c5055443b3332434231,
0x3b3b3b3b3b4e3b3b3b3b3b4c3b303b6f4c3b45564f424120444e4120454449534e492053544f442048544957204a2052455454454c204e41594f4c5055443b3432434231,
0x3b3b3b3b3b4e3b3b3b3b3b4c3b303b6f4c3b544f44204854495720532052455454454c204e41594f4c5055443b3532434231,
0x3b3b3b3b3b4e3b3b3b3b3b4c3b303b6f4c3b574f4c454220544f44204854495720532052455454454c204e41594f4c5055443b3632434231,
0x3b3b3b3b3b4e3b3b3b3b3b4c3b303b6f4c3b53204d2052455454454c204e41594f4c5055443b3732434231,
0x3b3b3b3b3b4e3b3b3b3b3b4c3b303b6f4c3b53204e2052455454454c204e41594f4c5055443b3832434231,
0x3b3b3b3b3b4e3b3b3b3b3b4c3b303b6f4c3b53204a2052455454454c204e41594f4c5055443b3932434231,
0x3b3b3b3b3b4e3b3b3b3b3b4c3b303b6f4c3b5320532052455454454c204e41594f4c5055443b4132434231,
0x3b3b3b3b3b4e3b3b3b3b3b4c3b303b6f4c3b53204e204d2052455454454c204e41594f4c5055443b4232434231,
0x3b3b3b3b3b4e3b3b3b3b3b4c3b303b6f4c3b53204d204e2052455454454c204e41594f4c5055443b4332434231,
0x3b3b3b3b3b4e3b3b3b3b3b4c3b303b6f4c3b53204d204a2052455454454c204e41594f4c5055443b4432434231,
0x3b3b3b3b3b4e3b3b3b3b3b4c3b303b6f4c3b53204a20532052455454454c204e41594f4c5055443b4532434231,
0x3b3b3b3b3b4e3b3b3b3b3b4c3b303b6f4c3b544f4420485449572053204a2052455454454c204e41594f4c5055443b4632434231,
0x3b3b3b3b3b4e3b3b3b3b3b4c3b303b6f4c3b4e204a2052455454454c204e41594f4c5055443b3033434231,
0x3b3b3b3b3b4e3b3b3b3b3b4c3b303b6f4c3b53204e204a2052455454454c204e41594f4c5055443b3133434231,
0x3b3b3b3b3b4e3b3b3b3b3b4c3b303b6f4c3b5420532052455454454c204e41594f4c5055443b3233434231,
0x3b3b3b3b3b4e3b3b3b3b3b4c3b303b6f4c3b52205420532052455454454c204e41594f4c5055443b3333434231,
0x3b3b3b3b3b4e3b3b3b3b3b4c3b303b6f4c3b5020532052455454454c204e41594f4c5055443b3433434231,
0x3b3b3b3b3b4e3b3b3b3b3b4c3b303b6f4c3b52205020532052455454454c204e41594f4c5055443b3533434231,
0x3b3b3b3b3b4e3b3b3b3b3b4c3b303b6f4c3b5320542052455454454c204e41594f4c5055443b3633434231,
0x3b3b3b3b3b4e3b3b3b3b3b4c3b303b6f4c3b53205220542052455454454c204e41594f4c5055443b3733434231,
0x3b3b3b3b3b4e3b3b3b3b3b4c3b303b6f4c3b572052455454454c204e41594f4c5055443b3833434231,
0x3b3b3b3b3b4e3b3b3b3b3b4c3b303b6f4c3b48572052455454454c204e41594f4c5055443b3933434231,
0x3b3b3b3b3b4e3b3b3b3b3b4c3b303b6f4c3b5220572052455454454c204e41594f4c5055443b4133434231,
0x3b3b3b3b3b4e3b3b3b3b3b4c3b303b6f4c3b4e20532052455454454c204e41594f4c5055443b4233434231,
0x3b3b3b3b3b4e3b3b3b3b3b4c3b303b6f4c3b4d20532052455454454c204e41594f4c5055443b4333434231,
0x3b3b3b3b3b4e3b3b3b3b3b4c3b303b6f4c3b532052204b2052455454454c204e41594f4c5055443b4433434231,
0x3b3b3b3b3b4e3b3b3b3b3b4c3b303b6f4c3b53205220472052455454454c204e41594f4c5055443b4533434231,
0x3b3b3b3b3b4e3b3b3b3b3b4c3b303b6f4c3b4b20532052455454454c204e41594f4c5055443b4633434231,
0x3b3b3b3b3b4e3b3b3b3b3b4c3b303b6f4c3b52204b20532052455454454c204e41594f4c5055443b3034434231,
0x3b3b3b3b3b4e3b3b3b3b3b4c3b303b6f4c3b412052455454454c204e41594f4c5055443b3134434231,
0x3b3b3b3b3b4e3b3b3b3b3b4c3b303b6f4c3b574f204e414f4c532052455454454c204e41594f4c5055443b3234434231,
0x3b3b3b3b3b4e3b3b3b3b3b4c3b303b6f4c3b414f2052455454454c204e41594f4c5055443b3334434231,
0x3b3b3b3b3b4e3b3b3b3b3b4c3b303b6f4c3b4f2052455454454c204e41594f4c5055443b3434434231,
0x3b3b3b3b3b4e3b3b3b3b3b4c3b303b6f4c3b554f412052455454454c204e41594f4c5055443b3534434231,
0x3b3b3b3b3b4e3b3b3b3b3b4c3b303b6f4c3b492052455454454c204e41594f4c5055443b3634434231,
0x3b3b3b3b3b4e3b3b3b3b3b4c3b303b6f4c3b452052455454454c204e41594f4c5055443b3734434231,
0x3b3b3b3b3b4e3b3b3b3b3b4c3b303b6f4c3b45492052455454454c204e41594f4c5055443b3834434231,
0x3b3b3b3b3b4e3b3b3b3b3b4c3b303b6f4c3b492054524f48532052455454454c204e41594f4c5055443b3934434231,
0x3b3b3b3b3b4e3b3b3b3b3b4c3b303b6f4c3b49552052455454454c204e41594f4c5055443b4134434231,
0x3b3b3b3b3b4e3b3b3b3b3b4c3b303b6f4c3b45452052455454454c204e41594f4c5055443b4234434231,
0x3b3b3b3b3b4e3b3b3b3b3b4c3b303b6f4c3b4845204e414f4c532052455454454c204e41594f4c5055443b4334434231,
0x3b3b3b3b3b4e3b3b3b3b3b4c3b303b6f4c3b49204e41494e414d4f522052455454454c204e41594f4c5055443b4434434231,
0x3b3b3b3b3b4e3b3b3b3b3b4c3b303b6f4c3b4545204e414f4c532052455454454c204e41594f4c5055443b4534434231,
0x3b3b3b3b3b4e3b3b3b3b3b4c3b303b6f4c3b4920474e4f4c2052455454454c204e41594f4c5055443b4634434231,
0x3b3b3b3b3b4e3b3b3b3b3b4c3b303b6f4c3b45592052455454454c204e41594f4c5055443b3035434231,
0x3b3b3b3b3b4e3b3b3b3b3b4c3b303b6f4c3b552052455454454c204e41594f4c5055443b3135434231,
0x3b3b3b3b3b4e3b3b3b3b3b4c3b303b6f4c3b55452052455454454c204e41594f4c5055443b3235434231,
0x3b3b3b3b3b4e3b3b3b3b3b4c3b303b6f4c3b57582052455454454c204e41594f4c5055443b3335434231,
0x3b3b3b3b3b4e3b3b3b3b3b4c3b303b6f4c3b4e20552052455454454c204e41594f4c5055443b3435434231,
0x3b3b3b3b3b4e3b3b3b3b3b4c3b303b6f4c3b5520474e4f4c2052455454454c204e41594f4c5055443b3535434231,
0x3b3b3b3b3b4e3b3b3b3b3b4c3b303b6f4c3b55204e41494e414d4f522052455454454c204e41594f4c5055443b3635434231,
0x3b3b3b3b3b4e3b3b3b3b3b4c3b303b6f4c3b48552052455454454c204e41594f4c5055443b3735434231,
0x3b3b3b3b3b4e3b3b3b3b3b4c3b303b6f4c3b55204e414f4c532052455454454c204e41594f4c5055443b3835434231,
0x3b3b3b3b3b4e3b3b3b3b3b4c3b303b6f4c3b484f4f2052455454454c204e41594f4c5055443b3935434231,
0x3b3b3b3b3b4e3b3b3b3b3b4c3b303b6f4c3b574f2052455454454c204e41594f4c5055443b4135434231,
0x3b3b3b3b3b4e3b3b3b3b3b4c3b303b6f4c3b554f2052455454454c204e41594f4c5055443b4235434231,
0x3b3b3b3b3b4e3b3b3b3b3b4c3b303b6f4c3b41572052455454454c204e41594f4c5055443b4335434231,
0x3b3b3b3b3b4e3b3b3b3b3b4c3b303b6f4c3b4f572052455454454c204e41594f4c5055443b4435434231,
0x3b3b3b3b3b4e3b3b3b3b3b4c3b303b6f4c3b49572052455454454c204e41594f4c5055443b4535434231,
0x3b3b3b3b3b4e3b3b3b3b3b4c3b303b6f4c3b4945572052455454454c204e41594f4c5055443b4635434231,
0x3b3b3b3b3b4e3b3b3b3b3b4c3b303b6f4c3b574f572052455454454c204e41594f4c5055443b3036434231,
0x3b3b3b3b3b4e3b3b3b3b3b4c3b303b6f4c3b55204c4153414e2052455454454c204e41594f4c5055443b3136434231,
0x3b3b3b3b3b4e3b3b3b3b3b4c3b303b6f4c3b4f204c4153414e2052455454454c204e41594f4c5055443b3236434231,
0x3b3b3b3b3b4e3b3b3b3b3b4c3b303b6f4c3b49204c4153414e2052455454454c204e41594f4c5055443b3336434231,
0x3b3b3b3b3b4e3b3b3b3b3b4c3b303b6f4c3b41204c4153414e2052455454454c204e41594f4c5055443b3436434231,
0x3b3b3b3b3b4e3b3b3b3b3b4c3b303b6f4c3b4e41204e494e5245502052455454454c204e41594f4c5055443b3536434231,
0x3b3b3b3b3b4e3b3b3b3b3b4c3b303b6f4c3b4d41204e494e5245502052455454454c204e41594f4c5055443b3636434231,
0x3b3b3b3b3b4e3b3b3b3b3b4c3b303b6f4c3b4e45204e414f4c532052455454454c204e41594f4c5055443b3736434231,
0x3b3b3b3b3b4e3b3b3b3b3b4c3b303b6f4c3b4e41204e414f4c532052455454454c204e41594f4c5055443b3836434231,
0x3b3b3b3b3b4e3b3b3b3b3b4c3b303b6f4c3b4e4f204e414f4c532052455454454c204e41594f4c5055443b3936434231,
0x3b3b3b3b3b4e3b3b3b3b3b4c3b303b6f4c3b4d2043494c41434f562052455454454c204e41594f4c5055443b4136434231,
0x3b3b3b3b3b4e3b3b3b3b3b4c3b303b6f4c3b544e41434553204c41544e4f5a49524f48205446454c205849464641204e41594f4c5055443b3037434231,
0x3b3b3b3b3b4e3b3b3b3b3b4c3b303b6f4c3b544e41434553204c41544e4f5a49524f482044494d205849464641204e41594f4c5055443b3137434231,
0x3b3b3b3b3b4e3b3b3b3b3b4c3b303b6f4c3b544e41434553204c41544e4f5a49524f48205448474952205849464641204e41594f4c5055443b3237434231,
0x3b3b3b3b3b4e3b3b3b3b3b4c3b303b6f4c3b544e41434553204c4143495452455620574f4c205849464641204e41594f4c5055443b3337434231,
0x3b3b3b3b3b4e3b3b3b3b3b4c3b303b6f4c3b544e41434553204c414349545245562044494d205849464641204e41594f4c5055443b3437434231,
0x3b3b3b3b3b4e3b3b3b3b3b4c3b303b6f4c3b544e41434553204c414349545245562048474948205849464641204e41594f4c5055443b3537434231,
0x3b3b3b3b3b4e3b3b3b3b3b4c3b303b6f4c3b544e41434553204445484341545441205849464641204e41594f4c5055443b3637434231,
0x3b3b3b3b3b4e3b3b3b3b3b4c3b303b6f4c3b544e414345532054484749522d4f542d5446454c204445484341545441205849464641204e41594f4c5055443b3737434231,
0x3b3b3b3b3b4e3b3b3b3b3b4c3b303b6f4c3b544e45474e4154204445484341545441205849464641204e41594f4c5055443b3837434231,
0x3b3b3b3b3b4e3b3b3b3b3b4c3b303b6f4c3b4c494154204445484341545441205849464641204e41594f4c5055443b3937434231,
0x3b3b3b3b3b4e3b3b3b3b3b4c3b303b6f4c3b4b4f4f482045204445484341545441205849464641204e41594f4c5055443b4137434231,
0x3b3b3b3b3b4e3b3b3b3b3b4c3b303b6f4c3b4b4f4f482049204445484341545441205849464641204e41594f4c5055443b4237434231,
0x3b3b3b3b3b4e3b3b3b3b3b4c3b303b6f4c3b4b4f4f4820544e45474e4154204445484341545441205849464641204e41594f4c5055443b4337434231,
0x3b3b3b3b3b4e3b3b3b3b3b4c3b303b6f4c3b45545543412048474948205849464641204e41594f4c5055443b3038434231,
0x3b3b3b3b3b4e3b3b3b3b3b4c3b303b6f4c3b45545543412054484749542048474948205849464641204e41594f4c5055443b3138434231,
0x3b3b3b3b3b4e3b3b3b3b3b4c3b303b6f4c3b45564152472048474948205849464641204e41594f4c5055443b3238434231,
0x3b3b3b3b3b4e3b3b3b3b3b4c3b303b6f4c3b455641524720474e4f4c2048474948205849464641204e41594f4c5055443b3338434231,
0x3b3b3b3b3b4e3b3b3b3b3b4c3b303b6f4c3b544f442048474948205849464641204e41594f4c5055443b3438434231,
0x3b3b3b3b3b4e3b3b3b3b3b4c3b303b6f4c3b454c435249432048474948205849464641204e41594f4c5055443b3538434231,
0x3b3b3b3b3b4e3b3b3b3b3b4c3b303b6f4c3b454e494c2048474948205849464641204e41594f4c5055443b3638434231,
0x3b3b3b3b3b4e3b3b3b3b3b4c3b303b6f4c3b455641572048474948205849464641204e41594f4c5055443b3738434231,
0x3b3b3b3b3b4e3b3b3b3b3b4c3b303b6f4c3b4c414349545245562048474948205849464641204e41594f4c5055443b3838434231,
0x3b3b3b3b3b4e3b3b3b3b3b4c3b303b6f4c3b455455434120574f4c205849464641204e41594f4c5055443b3039434231,
0x3b3b3b3b3b4e3b3b3b3b3b4c3b303b6f4c3b455455434120544847495420574f4c205849464641204e41594f4c5055443b3139434231,
0x3b3b3b3b3b4e3b3b3b3b3b4c3b303b6f4c3b455641524720574f4c205849464641204e41594f4c5055443b3239434231,
0x3b3b3b3b3b4e3b3b3b3b3b4c3b303b6f4c3b455641524720474e4f4c20574f4c205849464641204e41594f4c5055443b3339434231,
0x3b3b3b3b3b4e3b3b3b3b3b4c3b303b6f4c3b544f4420574f4c205849464641204e41594f4c5055443b3439434231,
0x3b3b3b3b3b4e3b3b3b3b3b4c3b303b6f4c3b454c4352494320574f4c205849464641204e41594f4c5055443b3539434231,
0x3b3b3b3b3b4e3b3b3b3b3b4c3b303b6f4c3b454e494c20574f4c205849464641204e41594f4c5055443b3639434231,
0x3b3b3b3b3b4e3b3b3b3b3b4c3b303b6f4c3b4556415720574f4c205849464641204e41594f4c5055443b3739434231,
0x3b3b3b3b3b4e3b3b3b3b3b4c3b303b6f4c3b4c4143495452455620574f4c205849464641204e41594f4c5055443b3839434231,
0x3b3b3b3b3b4e3b3b3b3b3b4c3b303b6f4c3b574f52524120574f4c205849464641204e41594f4c5055443b3939434231,
0x3b3b3b3b3b4e3b3b3b3b3b4c3b303b6f533b53534f52432048544957204f204e474953204e41594f4c5055443b4339434231,
0x3b3b3b3b3b4e3b3b3b3b3b4d534e3b303b6e4d3b524f5443454c45532052455454454c204b43494854204e41594f4c5055443b4439434231,
0x3b3b3b3b3b4e3b3b3b3b3b4d534e3b313b6e4d3b4b52414d20454c42554f44204e41594f4c5055443b4539434231,
0x3b3b3b3b3b4e3b3b3b3b3b4c3b303b6f503b504f5453204c4c5546204b4f4f4e494843204e4f4954415554434e5550204e41594f4c5055443b4639434231,
0x3b3b3b3b3b4e3b3b3b3b3b4e423b303b66433b50414c5245564f2052455454454c2054414d524f4620444e414854524f48533b3041434231,
0x3b3b3b3b3b4e3b3b3b3b3b4e423b303b66433b50414c5245564f20474e49554e49544e4f432054414d524f4620444e414854524f48533b3141434231,
0x3b3b3b3b3b4e3b3b3b3b3b4e423b303b66433b50455453204e574f442054414d524f4620444e414854524f48533b3241434231,
0x3b3b3b3b3b4e3b3b3b3b3b4e423b303b66433b504554532050552054414d524f4620444e414854524f48533b3341434231,
0x3b3b3b3b3b4e3b3b3b3b3b4c3b303b6f533b494c495350204c4f424d5953204c41434953554d20454e49544e415a59423b3030304431,
0x3b3b3b3b3b4e3b3b3b3b3b4c3b303b6f533b414945534144204c4f424d5953204c41434953554d20454e49544e415a59423b3130304431,
0x3b3b3b3b3b4e3b3b3b3b3b4c3b303b6f533b494e454d4f505349524550204c4f424d5953204c41434953554d20454e49544e415a59423b3230304431,
0x3b3b3b3b3b4e3b3b3b3b3b4c3b303b6f533b4e4f4b4954494e4f464b4520414945584f204c4f424d5953204c41434953554d20454e49544e415a59423b3330304431,
0x3b3b3b3b3b4e3b3b3b3b3b4c3b303b6f533b494c50494420414945584f204c4f424d5953204c41434953554d20454e49544e415a59423b3430304431,
0x3b3b3b3b3b4e3b3b3b3b3b4c3b303b6f533b4e4f4b4954494e4f464b4520414945524156204c4f424d5953204c41434953554d20454e49544e415a59423b3530304431,
0x3b3b3b3b3b4e3b3b3b3b3b4c3b303b6f533b494c50494420414945524156204c4f424d5953204c41434953554d20454e49544e415a59423b3630304431,
0x3b3b3b3b3b4e3b3b3b3b3b4c3b303b6f533b495453494854414b204c4f424d5953204c41434953554d20454e49544e415a59423b3730304431,
0x3b3b3b3b3b4e3b3b3b3b3b4c3b303b6f533b494b4954414d525953204c4f424d5953204c41434953554d20454e49544e415a59423b3830304431,
0x3b3b3b3b3b4e3b3b3b3b3b4c3b303b6f533b494b4954494c4b41524150204c4f424d5953204c41434953554d20454e49544e415a59423b3930304431,
0x3b3b3b3b3b4e3b3b3b3b3b4c3b303b6f533b53495349524b4f5059204c4f424d5953204c41434953554d20454e49544e415a59423b4130304431,
0x3b3b3b3b3b4e3b3b3b3b3b4c3b303b6f533b494c5049442053495349524b4f5059204c4f424d5953204c41434953554d20454e49544e415a59423b4230304431,
0x3b3b3b3b3b4e3b3b3b3b3b4c3b303b6f533b495453414d45524b204c4f424d5953204c41434953554d20454e49544e415a59423b4330304431,
0x3b3b3b3b3b4e3b3b3b3b3b4c3b303b6f533b4e4f4b4954494e4f464b45204f53455041204c4f424d5953204c41434953554d20454e49544e415a59423b4430304431,
0x3b3b3b3b3b4e3b3b3b3b3b4c3b303b6f533b4e4f4b4954494e4f464b45204f5845204c4f424d5953204c41434953554d20454e49544e415a59423b4530304431,
0x3b3b3b3b3b4e3b3b3b3b3b4c3b303b6f533b4149454c4554204c4f424d5953204c41434953554d20454e49544e415a59423b4630304431,
0x3b3b3b3b3b4e3b3b3b3b3b4c3b303b6f533b4154414d49544e454b204c4f424d5953204c41434953554d20454e49544e415a59423b3031304431,
0x3b3b3b3b3b4e3b3b3b3b3b4c3b303b6f533b534f464f5254534f5041204c4f424d5953204c41434953554d20454e49544e415a59423b3131304431,
0x3b3b3b3b3b4e3b3b3b3b3b4c3b303b6f533b494c50494420534f464f5254534f5041204c4f424d5953204c41434953554d20454e49544e415a59423b3231304431,
0x3b3b3b3b3b4e3b3b3b3b3b4c3b303b6f533b414d56454e5953204c4f424d5953204c41434953554d20454e49544e415a59423b3331304431,
0x3b3b3b3b3b4e3b3b3b3b3b4c3b303b6f533b4154494854204c4f424d5953204c41434953554d20454e49544e415a59423b3431304431,
0x3b3b3b3b3b4e3b3b3b3b3b4c3b303b6f533b4e4f494148435241204e4f47494c4f204c4f424d5953204c41434953554d20454e49544e415a59423b3531304431,
0x3b3b3b3b3b4e3b3b3b3b3b4c3b303b6f533b4e4f494148435241204e4f47524f47204c4f424d5953204c41434953554d20454e49544e415a59423b3631304431,
0x3b3b3b3b3b4e3b3b3b3b3b4c3b303b6f533b4e4f4c495350204c4f424d5953204c41434953554d20454e49544e415a59423b3731304431,
0x3b3b3b3b3b4e3b3b3b3b3b4c3b303b6f533b4e4f4c494d414843204c4f424d5953204c41434953554d20454e49544e415a59423b3831304431,
0x3b3b3b3b3b4e3b3b3b3b3b4c3b303b6f533b5948544156204c4f424d5953204c41434953554d20454e49544e415a59423b3931304431,
0x3b3b3b3b3b4e3b3b3b3b3b4c3b303b6f533b4e4f494148435241204e4f5349204c4f424d5953204c41434953554d20454e49544e415a59423b4131304431,
0x3b3b3b3b3b4e3b3b3b3b3b4c3b303b6f533b4e4f49414843524120414d49544e454b204c4f424d5953204c41434953554d20454e49544e415a59423b4231304431,
0x3b3b3b3b3b4e3b3b3b3b3b4c3b303b6f533b4e4f494148435241204154414d49544e454b204c4f424d5953204c41434953554d20454e49544e415a59423b4331304431,
0x3b3b3b3b3b4e3b3b3b3b3b4c3b303b6f533b4154414d49584153204c4f424d5953204c41434953554d20454e49544e415a59423b4431304431,
0x3b3b3b3b3b4e3b3b3b3b3b4c3b303b6f533b4e4f484349524150204c4f424d5953204c41434953554d20454e49544e415a59423b4531304431,
0x3b3b3b3b3b4e3b3b3b3b3b4c3b303b6f533b41495845444f504120534f5256415453204c4f424d5953204c41434953554d20454e49544e415a59423b4631304431,
0x3b3b3b3b3b4e3b3b3b3b3b4c3b303b6f533b4e4f4941484352412049414945584f204c4f424d5953204c41434953554d20454e49544e415a59423b3032304431,
0x3b3b3b3b3b4e3b3b3b3b3b4c3b303b6f533b4e4f4941484352412049414945524156204c4f424d5953204c41434953554d20454e49544e415a59423b3132304431,
0x3b3b3b3b3b4e3b3b3b3b3b4c3b303b6f533b4e4f49414843524120414d5245444f5041204c4f424d5953204c41434953554d20454e49544e415a59423b3232304431,
0x3b3b3b3b3b4e3b3b3b3b3b4c3b303b6f533b414d4548544f5041204c4f424d5953204c41434953554d20454e49544e415a59423b3332304431,
0x3b3b3b3b3b4e3b3b3b3b3b4c3b303b6f533b414d53414c4b204c4f424d5953204c41434953554d20454e49544e415a59423b3432304431,
0x3b3b3b3b3b4e3b3b3b3b3b4c3b303b6f533b414d564552204c4f424d5953204c41434953554d20454e49544e415a59423b3532304431,
0x3b3b3b3b3b4e3b3b3b3b3b4c3b303b6f533b4e4f49414843524120414d53414950204c4f424d5953204c41434953554d20454e49544e415a59423b3632304431,
0x3b3b3b3b3b4e3b3b3b3b3b4c3b303b6f533b414d47414e4954204c4f424d5953204c41434953554d20454e49544e415a59423b3732304431,
0x3b3b3b3b3b4e3b3b3b3b3b4c3b303b6f533b414d53494843495254414e41204c4f424d5953204c41434953554d20454e49544e415a59423b3832304431,
0x3b3b3b3b3b4e3b3b3b3b3b4c3b303b6f533b414d53494553204c4f424d5953204c41434953554d20454e49544e415a59423b3932304431,
0x3b3b3b3b3b4e3b3b3b3b3b4c3b303b6f533b4e4f49414843524120414d47414e5953204c4f424d5953204c41434953554d20454e49544e415a59423b4132304431,
0x3b3b3b3b3b4e3b3b3b3b3b4c3b303b6f533b554f5256415453204154454d20414d47414e5953204c4f424d5953204c41434953554d20454e49544e415a59423b4232304431,
0x3b3b3b3b3b4e3b3b3b3b3b4c3b303b6f533b4e4f49414843524120414d53494e4152594f204c4f424d5953204c41434953554d20454e49544e415a59423b4332304431,
0x3b3b3b3b3b4e3b3b3b3b3b4c3b303b6f533b414d454854204c4f424d5953204c41434953554d20454e49544e415a59423b4432304431,
0x3b3b3b3b3b4e3b3b3b3b3b4c3b303b6f533b494f4d454c204c4f424d5953204c41434953554d20454e49544e415a59423b4532304431,
0x3b3b3b3b3b4e3b3b3b3b3b4c3b303b6f533b4f5944204c4f424d5953204c41434953554d20454e49544e415a59423b4632304431,
0x3b3b3b3b3b4e3b3b3b3b3b4c3b303b6f533b41495254204c4f424d5953204c41434953554d20454e49544e415a59423b3033304431,
0x3b3b3b3b3b4e3b3b3b3b3b4c3b303b6f533b41524553534554204c4f424d5953204c41434953554d20454e49544e415a59423b3133304431,
0x3b3b3b3b3b4e3b3b3b3b3b4c3b303b6f533b4154414d495441524b204c4f424d5953204c41434953554d20454e49544e415a59423b3233304431,
0x3b3b3b3b3b4e3b3b3b3b3b4c3b303b6f533b4f454e204f5845204f53455041204c4f424d5953204c41434953554d20454e49544e415a59423b3333304431,
0x3b3b3b3b3b4e3b3b3b3b3b4c3b303b6f533b4e4f4941484352412041524f485446204c4f424d5953204c41434953554d20454e49544e415a59423b3433304431,
0x3b3b3b3b3b4e3b3b3b3b3b4c3b303b6f533b41524f485446494d49204c4f424d5953204c41434953554d20454e49544e415a59423b3533304431,
0x3b3b3b3b3b4e3b3b3b3b3b4c3b303b6f533b4e4f494148435241204e4f4b494d4f5254204c4f424d5953204c41434953554d20454e49544e415a59423b3633304431,
0x3b3b3b3b3b4e3b3b3b3b3b4c3b303b6f533b4e4f4b494d4f52542041564154414b204c4f424d5953204c41434953554d20454e49544e415a59423b3733304431,
0x3b3b3b3b3b4e3b3b3b3b3b4c3b303b6f533b4e4f5453414c4550204c4f424d5953204c41434953554d20454e49544e415a59423b3833304431,
0x3b3b3b3b3b4e3b3b3b3b3b4c3b303b6f533b4e4f54534946495350204c4f424d5953204c41434953554d20454e49544e415a59423b3933304431,
0x3b3b3b3b3b4e3b3b3b3b3b4c3b303b6f533b414d5645544e4f4b204c4f424d5953204c41434953554d20454e49544e415a59423b4133304431,
0x3b3b3b3b3b4e3b3b3b3b3b4c3b303b6f533b4e4f49414843524120414d5645524f4843204c4f424d5953204c41434953554d20454e49544e415a59423b4233304431,
0x3b3b3b3b3b4e3b3b3b3b3b4c3b303b6f533b414d5349504152204c4f424d5953204c41434953554d20454e49544e415a59423b4333304431,
0x3b3b3b3b3b4e3b3b3b3b3b4c3b303b6f533b4e4f49414843524120414d53454c414b41524150204c4f424d5953204c41434953554d20454e49544e415a59423b4433304431,
0x3b3b3b3b3b4e3b3b3b3b3b4c3b303b6f533b4e4f49414843524120494b4954494c4b41524150204c4f424d5953204c41434953554d20454e49544e415a59423b4533304431,
0x3b3b3b3b3b4e3b3b3b3b3b4c3b303b6f533b4e494441484349204c4f424d5953204c41434953554d20454e49544e415a59423b4633304431,
0x3b3b3b3b3b4e3b3b3b3b3b4c3b303b6f533b414e414e204c4f424d5953204c41434953554d20454e49544e415a59423b3034304431,
0x3b3b3b3b3b4e3b3b3b3b3b4c3b303b6f533b414d5341544550204c4f424d5953204c41434953554d20454e49544e415a59423b3134304431,
0x3b3b3b3b3b4e3b3b3b3b3b4c3b303b6f533b4f4c4c4120414d5645544e4f4b204c4f424d5953204c41434953554d20454e49544e415a59423b3234304431,
0x3b3b3b3b3b4e3b3b3b3b3b4c3b303b6f533b4f4c4c41204e4f4b494d4f5254204c4f424d5953204c41434953554d20454e49544e415a59423b3334304431,
0x3b3b3b3b3b4e3b3b3b3b3b4c3b303b6f533b4154414d5349474741525453204c4f424d5953204c41434953554d20454e49544e415a59423b3434304431,
0x3b3b3b3b3b4e3b3b3b3b3b4c3b303b6f533b4154414d534948544e4f5247204c4f424d5953204c41434953554d20454e49544e415a59423b3534304431,
0x3b3b3b3b3b4e3b3b3b3b3b4c3b303b6f533b4f454e204e4f5349204c4f424d5953204c41434953554d20454e49544e415a59423b3634304431,
0x3b3b3b3b3b4e3b3b3b3b3b4c3b303b6f533b4f454e204e4f47494c4f204c4f424d5953204c41434953554d20454e49544e415a59423b3734304431,
0x3b3b3b3b3b4e3b3b3b3b3b4c3b303b6f533b4f454e20414945584f204c4f424d5953204c41434953554d20454e49544e415a59423b3834304431,
0x3b3b3b3b3b4e3b3b3b3b3b4c3b303b6f533b49545341544550204c4f424d5953204c41434953554d20454e49544e415a59423b3934304431,
0x3b3b3b3b3b4e3b3b3b3b3b4c3b303b6f533b414d534946554f4b204c4f424d5953204c41434953554d20454e49544e415a59423b4134304431,
0x3b3b3b3b3b4e3b3b3b3b3b4c3b303b6f533b414d534946554f4b4f545341544550204c4f424d5953204c41434953554d20454e49544e415a59423b4234304431,
0x3b3b3b3b3b4e3b3b3b3b3b4c3b303b6f533b414d534946554f4b4f4d495441524b204c4f424d5953204c41434953554d20454e49544e415a59423b4334304431,
0x3b3b3b3b3b4e3b3b3b3b3b4c3b303b6f533b4f454e204e4f5453414c4550204c4f424d5953204c41434953554d20454e49544e415a59423b4434304431,
0x3b3b3b3b3b4e3b3b3b3b3b4c3b303b6f533b4f4e41204f454e204154414d49544e454b204c4f424d5953204c41434953554d20454e49544e415a59423b4534304431,
0x3b3b3b3b3b4e3b3b3b3b3b4c3b303b6f533b4f4e41204f454e20414d49544e454b204c4f424d5953204c41434953554d20454e49544e415a59423b4634304431,
0x3b3b3b3b3b4e3b3b3b3b3b4c3b303b6f533b494c49535059204c4f424d5953204c41434953554d20454e49544e415a59423b3035304431,
0x3b3b3b3b3b4e3b3b3b3b3b4c3b303b6f533b4f454e20534f464f5254534f5041204c4f424d5953204c41434953554d20454e49544e415a59423b3135304431,
0x3b3b3b3b3b4e3b3b3b3b3b4c3b303b6f533b4f454e20534f4d5345444e595320494f464f5254534f5041204c4f424d5953204c41434953554d20454e49544e415a59423b3235304431,
0x3b3b3b3b3b4e3b3b3b3b3b4c3b303b6f533b494f52524f5059204c4f424d5953204c41434953554d20454e49544e415a59423b3335304431,
0x3b3b3b3b3b4e3b3b3b3b3b4c3b303b6f533b4e4f4f52524f50594f4d495441524b204c4f424d5953204c41434953554d20454e49544e415a59423b3435304431,
0x3b3b3b3b3b4e3b3b3b3b3b4c3b303b6f533b4e4f5246414c45204c4f424d5953204c41434953554d20454e49544e415a59423b3535304431,
0x3b3b3b3b3b4e3b3b3b3b3b4c3b303b6f533b494c494d414843204c4f424d5953204c41434953554d20454e49544e415a59423b3635304431,
0x3b3b3b3b3b4e3b3b3b3b3b4c3b303b6f533b4e4f5349204e4f524b494d204c4f424d5953204c41434953554d20454e49544e415a59423b3735304431,
0x3b3b3b3b3b4e3b3b3b3b3b4c3b303b6f533b4f454e20414945524156204c4f424d5953204c41434953554d20454e49544e415a59423b3835304431,
0x3b3b3b3b3b4e3b3b3b3b3b4c3b303b6f533b4f454e20414d53414950204c4f424d5953204c41434953554d20454e49544e415a59423b3935304431,
0x3b3b3b3b3b4e3b3b3b3b3b4c3b303b6f533b4f454e204e4f54534946495350204c4f424d5953204c41434953554d20454e49544e415a59423b4135304431,
0x3b3b3b3b3b4e3b3b3b3b3b4c3b303b6f533b4e4f4c414d4f204c4f424d5953204c41434953554d20454e49544e415a59423b4235304431,
0x3b3b3b3b3b4e3b3b3b3b3b4c3b303b6f533b414d4f4e454b49544e41204c4f424d5953204c41434953554d20454e49544e415a59423b4335304431]

/-- src/u5e/props/UnicodeData.txt lines 25089-25344. -/
def rawUcd98 : List Nat := [
0x3b3b3b3b3b4e3b3b3b3b3b4c3b303b6f533b414d534947594c204c4f424d5953204c41434953554d20454e49544e415a59423b4435304431,
0x3b3b3b3b3b4e3b3b3b3b3b4c3b303b6f533b4f454e20494b4954494c4b41524150204c4f424d5953204c41434953554d20454e49544e415a59423b4535304431,
0x3b3b3b3b3b4e3b3b3b3b3b4c3b303b6f533b4f454e20414d53454c414b41524150204c4f424d5953204c41434953554d20454e49544e415a59423b4635304431,
0x3b3b3b3b3b4e3b3b3b3b3b4c3b303b6f533b414d53454c414b41524150204e4f52455445204c4f424d5953204c41434953554d20454e49544e415a59423b3036304431,
0x3b3b3b3b3b4e3b3b3b3b3b4c3b303b6f533b414d53494c594b204c4f424d5953204c41434953554d20454e49544e415a59423b3136304431,
0x3b3b3b3b3b4e3b3b3b3b3b4c3b303b6f533b414d53494c594b4f4e454b49544e41204c4f424d5953204c41434953554d20454e49544e415a59423b3236304431,
0x3b3b3b3b3b4e3b3b3b3b3b4c3b303b6f533b4f454e204e4f4b494d4f5254204c4f424d5953204c41434953554d20454e49544e415a59423b3336304431,
0x3b3b3b3b3b4e3b3b3b3b3b4c3b303b6f533b4e4f5450455254534b45204c4f424d5953204c41434953554d20454e49544e415a59423b3436304431,
0x3b3b3b3b3b4e3b3b3b3b3b4c3b303b6f533b4f454e20414d47414e5953204c4f424d5953204c41434953554d20454e49544e415a59423b3536304431,
0x3b3b3b3b3b4e3b3b3b3b3b4c3b303b6f533b414d525953204c4f424d5953204c41434953554d20454e49544e415a59423b3636304431,
0x3b3b3b3b3b4e3b3b3b3b3b4c3b303b6f533b4f454e20414d5645524f4843204c4f424d5953204c41434953554d20454e49544e415a59423b3736304431,
0x3b3b3b3b3b4e3b3b3b3b3b4c3b303b6f533b414d524547455045204c4f424d5953204c41434953554d20454e49544e415a59423b3836304431,
0x3b3b3b3b3b4e3b3b3b3b3b4c3b303b6f533b4f454e20414d53494553204c4f424d5953204c41434953554d20454e49544e415a59423b3936304431,
0x3b3b3b3b3b4e3b3b3b3b3b4c3b303b6f533b414d53414c4b204e4f524958204c4f424d5953204c41434953554d20454e49544e415a59423b4136304431,
0x3b3b3b3b3b4e3b3b3b3b3b4c3b303b6f533b4e4f545349464953504f4b494d4f5254204c4f424d5953204c41434953554d20454e49544e415a59423b4236304431,
0x3b3b3b3b3b4e3b3b3b3b3b4c3b303b6f533b414d534947594c4f54534946495350204c4f424d5953204c41434953554d20454e49544e415a59423b4336304431,
0x3b3b3b3b3b4e3b3b3b3b3b4c3b303b6f533b414d534947594c4f4b494d4f5254204c4f424d5953204c41434953554d20454e49544e415a59423b4436304431,
0x3b3b3b3b3b4e3b3b3b3b3b4c3b303b6f533b414d53454c414b415241504f4b494d4f5254204c4f424d5953204c41434953554d20454e49544e415a59423b4536304431,
0x3b3b3b3b3b4e3b3b3b3b3b4c3b303b6f533b414d53454c414b415241504f54534946495350204c4f424d5953204c41434953554d20454e49544e415a59423b4636304431,
0x3b3b3b3b3b4e3b3b3b3b3b4c3b303b6f533b414d47414e59534f4b494d4f5254204c4f424d5953204c41434953554d20454e49544e415a59423b3037304431,
0x3b3b3b3b3b4e3b3b3b3b3b4c3b303b6f533b414d47414e59534f54534946495350204c4f424d5953204c41434953554d20454e49544e415a59423b3137304431,
0x3b3b3b3b3b4e3b3b3b3b3b4c3b303b6f533b4e4f544548544e59534f47524f47204c4f424d5953204c41434953554d20454e49544e415a59423b3237304431,
0x3b3b3b3b3b4e3b3b3b3b3b4c3b303b6f533b4e4f544548544e59534f475241204c4f424d5953204c41434953554d20454e49544e415a59423b3337304431,
0x3b3b3b3b3b4e3b3b3b3b3b4c3b303b6f533b4e4f544548544e59534f475241204e4f52455445204c4f424d5953204c41434953554d20454e49544e415a59423b3437304431,
0x3b3b3b3b3b4e3b3b3b3b3b4c3b303b6f533b4f454e20414d53494e4152594f204c4f424d5953204c41434953554d20454e49544e415a59423b3537304431,
0x3b3b3b3b3b4e3b3b3b3b3b4c3b303b6f533b4f534520534f4d534954414d454854204c4f424d5953204c41434953554d20454e49544e415a59423b3637304431,
0x3b3b3b3b3b4e3b3b3b3b3b4c3b303b6f533b4f584520534f4d534954414d454854204c4f424d5953204c41434953554d20454e49544e415a59423b3737304431,
0x3b3b3b3b3b4e3b3b3b3b3b4c3b303b6f533b4e554f4c504120414d454854204c4f424d5953204c41434953554d20454e49544e415a59423b3837304431,
0x3b3b3b3b3b4e3b3b3b3b3b4c3b303b6f533b534548544f50412049414b2053454854204c4f424d5953204c41434953554d20454e49544e415a59423b3937304431,
0x3b3b3b3b3b4e3b3b3b3b3b4c3b303b6f533b414d5341564154414b204c4f424d5953204c41434953554d20454e49544e415a59423b4137304431,
0x3b3b3b3b3b4e3b3b3b3b3b4c3b303b6f533b4e4f4e4f464f444e45204c4f424d5953204c41434953554d20454e49544e415a59423b4237304431,
0x3b3b3b3b3b4e3b3b3b3b3b4c3b303b6f533b4f54414b204e454659204c4f424d5953204c41434953554d20454e49544e415a59423b4337304431,
0x3b3b3b3b3b4e3b3b3b3b3b4c3b303b6f533b4f4e41204e454659204c4f424d5953204c41434953554d20454e49544e415a59423b4437304431,
0x3b3b3b3b3b4e3b3b3b3b3b4c3b303b6f533b534f5256415453204c4f424d5953204c41434953554d20454e49544e415a59423b4537304431,
0x3b3b3b3b3b4e3b3b3b3b3b4c3b303b6f533b4f4e4120414d53414c4b204c4f424d5953204c41434953554d20454e49544e415a59423b4637304431,
0x3b3b3b3b3b4e3b3b3b3b3b4c3b303b6f533b4e4f49414843524120494c504944204c4f424d5953204c41434953554d20454e49544e415a59423b3038304431,
0x3b3b3b3b3b4e3b3b3b3b3b4c3b303b6f533b4e4f49414843524120414d495441524b204c4f424d5953204c41434953554d20454e49544e415a59423b3138304431,
0x3b3b3b3b3b4e3b3b3b3b3b4c3b303b6f533b4f4c4c4120414d495441524b204c4f424d5953204c41434953554d20454e49544e415a59423b3238304431,
0x3b3b3b3b3b4e3b3b3b3b3b4c3b303b6f533b4f454e20414d495441524b204c4f424d5953204c41434953554d20454e49544e415a59423b3338304431,
0x3b3b3b3b3b4e3b3b3b3b3b4c3b303b6f533b4f454e20414d5245444f5041204c4f424d5953204c41434953554d20454e49544e415a59423b3438304431,
0x3b3b3b3b3b4e3b3b3b3b3b4c3b303b6f533b494c5041204c4f424d5953204c41434953554d20454e49544e415a59423b3538304431,
0x3b3b3b3b3b4e3b3b3b3b3b4c3b303b6f533b494c504944204c4f424d5953204c41434953554d20454e49544e415a59423b3638304431,
0x3b3b3b3b3b4e3b3b3b3b3b4c3b303b6f533b494c50495254204c4f424d5953204c41434953554d20454e49544e415a59423b3738304431,
0x3b3b3b3b3b4e3b3b3b3b3b4c3b303b6f533b494c504152544554204c4f424d5953204c41434953554d20454e49544e415a59423b3838304431,
0x3b3b3b3b3b4e3b3b3b3b3b4c3b303b6f533b53494e4f524f4b204c4f424d5953204c41434953554d20454e49544e415a59423b3938304431,
0x3b3b3b3b3b4e3b3b3b3b3b4c3b303b6f533b554f4e4f52484320534f4e4520414d4d49454c204c4f424d5953204c41434953554d20454e49544e415a59423b4138304431,
0x3b3b3b3b3b4e3b3b3b3b3b4c3b303b6f533b4e4f4e4f524843204f594420414d4d49454c204c4f424d5953204c41434953554d20454e49544e415a59423b4238304431,
0x3b3b3b3b3b4e3b3b3b3b3b4c3b303b6f533b4e4f4e4f524843204e4f49525420414d4d49454c204c4f424d5953204c41434953554d20454e49544e415a59423b4338304431,
0x3b3b3b3b3b4e3b3b3b3b3b4c3b303b6f533b4e4f4e4f524843204e4f52415353455420414d4d49454c204c4f424d5953204c41434953554d20454e49544e415a59423b4438304431,
0x3b3b3b3b3b4e3b3b3b3b3b4c3b303b6f533b554f4e4f52484320534f4553494d4920414d4d49454c204c4f424d5953204c41434953554d20454e49544e415a59423b4538304431,
0x3b3b3b3b3b4e3b3b3b3b3b4c3b303b6f533b4f4e41204f454e204e4f47524f47204c4f424d5953204c41434953554d20454e49544e415a59423b4638304431,
0x3b3b3b3b3b4e3b3b3b3b3b4c3b303b6f533b4152455453495241204e4f4e454d4749545345524150204e4f47524f47204c4f424d5953204c41434953554d20454e49544e415a59423b3039304431,
0x3b3b3b3b3b4e3b3b3b3b3b4c3b303b6f533b4149584544204e4f4e454d4749545345524150204e4f47524f47204c4f424d5953204c41434953554d20454e49544e415a59423b3139304431,
0x3b3b3b3b3b4e3b3b3b3b3b4c3b303b6f533b4e4f47524f474944204c4f424d5953204c41434953554d20454e49544e415a59423b3239304431,
0x3b3b3b3b3b4e3b3b3b3b3b4c3b303b6f533b4f54414b204152455453495241204e4f4e454d4749545345524150204e4f47524f474944204c4f424d5953204c41434953554d20454e49544e415a59423b3339304431,
0x3b3b3b3b3b4e3b3b3b3b3b4c3b303b6f533b4f4e41204152455453495241204e4f4e454d4749545345524150204e4f47524f474944204c4f424d5953204c41434953554d20454e49544e415a59423b3439304431,
0x3b3b3b3b3b4e3b3b3b3b3b4c3b303b6f533b4149584544204e4f4e454d4749545345524150204e4f47524f474944204c4f424d5953204c41434953554d20454e49544e415a59423b3539304431,
0x3b3b3b3b3b4e3b3b3b3b3b4c3b303b6f533b4e4f47524f47495254204c4f424d5953204c41434953554d20454e49544e415a59423b3639304431,
0x3b3b3b3b3b4e3b3b3b3b3b4c3b303b6f533b4e4f475241204c4f424d5953204c41434953554d20454e49544e415a59423b3739304431,
0x3b3b3b3b3b4e3b3b3b3b3b4c3b303b6f533b4e4f4752414944494d49204c4f424d5953204c41434953554d20454e49544e415a59423b3839304431,
0x3b3b3b3b3b4e3b3b3b3b3b4c3b303b6f533b4e4f4752414944204c4f424d5953204c41434953554d20454e49544e415a59423b3939304431,
0x3b3b3b3b3b4e3b3b3b3b3b4c3b303b6f533b4947524120494c4f502049474f4741204c4f424d5953204c41434953554d20454e49544e415a59423b4139304431,
0x3b3b3b3b3b4e3b3b3b3b3b4c3b303b6f533b495245544f4752412049474f4741204c4f424d5953204c41434953554d20454e49544e415a59423b4239304431,
0x3b3b3b3b3b4e3b3b3b3b3b4c3b303b6f533b494752412049474f4741204c4f424d5953204c41434953554d20454e49544e415a59423b4339304431,
0x3b3b3b3b3b4e3b3b3b3b3b4c3b303b6f533b41495254454d2049474f4741204c4f424d5953204c41434953554d20454e49544e415a59423b4439304431,
0x3b3b3b3b3b4e3b3b3b3b3b4c3b303b6f533b4953454d2049474f4741204c4f424d5953204c41434953554d20454e49544e415a59423b4539304431,
0x3b3b3b3b3b4e3b3b3b3b3b4c3b303b6f533b4947524f472049474f4741204c4f424d5953204c41434953554d20454e49544e415a59423b4639304431,
0x3b3b3b3b3b4e3b3b3b3b3b4c3b303b6f533b495245544f47524f472049474f4741204c4f424d5953204c41434953554d20454e49544e415a59423b3041304431,
0x3b3b3b3b3b4e3b3b3b3b3b4c3b303b6f533b4947524f4720494c4f502049474f4741204c4f424d5953204c41434953554d20454e49544e415a59423b3141304431,
0x3b3b3b3b3b4e3b3b3b3b3b4c3b303b6f533b534f48434920534f544f525020414952595452414d204c4f424d5953204c41434953554d20454e49544e415a59423b3241304431,
0x3b3b3b3b3b4e3b3b3b3b3b4c3b303b6f533b534f48434920534f544f525020494c4c4120414952595452414d204c4f424d5953204c41434953554d20454e49544e415a59423b3341304431,
0x3b3b3b3b3b4e3b3b3b3b3b4c3b303b6f533b534f48434920534f52455459454420414952595452414d204c4f424d5953204c41434953554d20454e49544e415a59423b3441304431,
0x3b3b3b3b3b4e3b3b3b3b3b4c3b303b6f533b534f48434920534f52455459454420494c4c4120414952595452414d204c4f424d5953204c41434953554d20454e49544e415a59423b3541304431,
0x3b3b3b3b3b4e3b3b3b3b3b4c3b303b6f533b534f48434920534f5449525420414952595452414d204c4f424d5953204c41434953554d20454e49544e415a59423b3641304431,
0x3b3b3b3b3b4e3b3b3b3b3b4c3b303b6f533b5341494e4f4649525420414952595452414d204c4f424d5953204c41434953554d20454e49544e415a59423b3741304431,
0x3b3b3b3b3b4e3b3b3b3b3b4c3b303b6f533b534f48434920534f54524154455420414952595452414d204c4f424d5953204c41434953554d20454e49544e415a59423b3841304431,
0x3b3b3b3b3b4e3b3b3b3b3b4c3b303b6f533b534f48434920534f544547454c20534f54524154455420414952595452414d204c4f424d5953204c41434953554d20454e49544e415a59423b3941304431,
0x3b3b3b3b3b4e3b3b3b3b3b4c3b303b6f533b534f48434920534f544547454c20414952595452414d204c4f424d5953204c41434953554d20454e49544e415a59423b4141304431,
0x3b3b3b3b3b4e3b3b3b3b3b4c3b303b6f533b534f48434920534f4947414c5020414952595452414d204c4f424d5953204c41434953554d20454e49544e415a59423b4241304431,
0x3b3b3b3b3b4e3b3b3b3b3b4c3b303b6f533b534f54414d494843492053554f4c45542041494b415349204c4f424d5953204c41434953554d20454e49544e415a59423b4341304431,
0x3b3b3b3b3b4e3b3b3b3b3b4c3b303b6f533b534f54414d494843492053554f4c455420494f464f5254534f5041204c4f424d5953204c41434953554d20454e49544e415a59423b4441304431,
0x3b3b3b3b3b4e3b3b3b3b3b4c3b303b6f533b5341494e4f464152544554205349534f52454e4146204c4f424d5953204c41434953554d20454e49544e415a59423b4541304431,
0x3b3b3b3b3b4e3b3b3b3b3b4c3b303b6f533b5341494e4f464f4e4f4d205349534f52454e4146204c4f424d5953204c41434953554d20454e49544e415a59423b4641304431,
0x3b3b3b3b3b4e3b3b3b3b3b4c3b303b6f533b5341494e4f464944205349534f52454e4146204c4f424d5953204c41434953554d20454e49544e415a59423b3042304431,
0x3b3b3b3b3b4e3b3b3b3b3b4c3b303b6f533b534f48434920535952415620414952595452414d204c4f424d5953204c41434953554d20454e49544e415a59423b3142304431,
0x3b3b3b3b3b4e3b3b3b3b3b4c3b303b6f533b534f4843492053595241564f544f525020414952595452414d204c4f424d5953204c41434953554d20454e49544e415a59423b3242304431,
0x3b3b3b3b3b4e3b3b3b3b3b4c3b303b6f533b534f48434920534f54524154455420534f4947414c5020414952595452414d204c4f424d5953204c41434953554d20454e49544e415a59423b3342304431,
0x3b3b3b3b3b4e3b3b3b3b3b4c3b303b6f533b4e554f4c5041204e204e4f4b494d4854524f47204c4f424d5953204c41434953554d20454e49544e415a59423b3442304431,
0x3b3b3b3b3b4e3b3b3b3b3b4c3b303b6f533b4e554f4c504944204e204e4f4b494d4854524f47204c4f424d5953204c41434953554d20454e49544e415a59423b3542304431,
0x3b3b3b3b3b4e3b3b3b3b3b4c3b303b6f533b554f562041524f4854462049414b2053495852414e45204c4f424d5953204c41434953554d20454e49544e415a59423b3642304431,
0x3b3b3b3b3b4e3b3b3b3b3b4c3b303b6f533b4e4f4e4f46494d49204c4f424d5953204c41434953554d20454e49544e415a59423b3742304431,
0x3b3b3b3b3b4e3b3b3b3b3b4c3b303b6f533b4e4f524f485446494d49204c4f424d5953204c41434953554d20454e49544e415a59423b3842304431,
0x3b3b3b3b3b4e3b3b3b3b3b4c3b303b6f533b554f48434920554f524554594544204e4f4941484352412041524f485446204c4f424d5953204c41434953554d20454e49544e415a59423b3942304431,
0x3b3b3b3b3b4e3b3b3b3b3b4c3b303b6f533b415020494b494e4f544149442041524f485446204c4f424d5953204c41434953554d20454e49544e415a59423b4142304431,
0x3b3b3b3b3b4e3b3b3b3b3b4c3b303b6f533b414e414e20494b494e4f544149442041524f485446204c4f424d5953204c41434953554d20454e49544e415a59423b4242304431,
0x3b3b3b3b3b4e3b3b3b3b3b4c3b303b6f533b534f48434920534f414e2041524f485446204c4f424d5953204c41434953554d20454e49544e415a59423b4342304431,
0x3b3b3b3b3b4e3b3b3b3b3b4c3b303b6f533b494420494b494e4f544149442041524f485446204c4f424d5953204c41434953554d20454e49544e415a59423b4442304431,
0x3b3b3b3b3b4e3b3b3b3b3b4c3b303b6f533b4944204e4f4e4f54414944204e4f52494c4b532041524f485446204c4f424d5953204c41434953554d20454e49544e415a59423b4542304431,
0x3b3b3b3b3b4e3b3b3b3b3b4c3b303b6f533b454b20494b494e4f544149442041524f485446204c4f424d5953204c41434953554d20454e49544e415a59423b4642304431,
0x3b3b3b3b3b4e3b3b3b3b3b4c3b303b6f533b4f5a20494b494e4f544149442041524f485446204c4f424d5953204c41434953554d20454e49544e415a59423b3043304431,
0x3b3b3b3b3b4e3b3b3b3b3b4c3b303b6f533b4f54414b20494e20494b494e4f544149442041524f485446204c4f424d5953204c41434953554d20454e49544e415a59423b3143304431,
0x3b3b3b3b3b4e3b3b3b3b3b4c3b303b6f533b4f4e4120494e20494b494e4f544149442041524f485446204c4f424d5953204c41434953554d20454e49544e415a59423b3243304431,
0x3b3b3b3b3b4e3b3b3b3b3b4c3b303b6f533b5341494e4f46494420414d4f524843204e4f4b414c414d2041524f485446204c4f424d5953204c41434953554d20454e49544e415a59423b3343304431,
0x3b3b3b3b3b4e3b3b3b3b3b4c3b303b6f533b5341494e4f464f4e4f4d20414d4f524843204e4f4b414c414d2041524f485446204c4f424d5953204c41434953554d20454e49544e415a59423b3443304431,
0x3b3b3b3b3b4e3b3b3b3b3b4c3b303b6f533b534953415620414d4f524843204e4f52494c4b532041524f544846204c4f424d5953204c41434953554d20454e49544e415a59423b3543304431,
0x3b3b3b3b3b4e3b3b3b3b3b4c3b303b6f533b4946414e595320414d4f524843204e4f52494c4b532041524f485446204c4f424d5953204c41434953554d20454e49544e415a59423b3643304431,
0x3b3b3b3b3b4e3b3b3b3b3b4c3b303b6f533b4f4e414e454e2041524f485446204c4f424d5953204c41434953554d20454e49544e415a59423b3743304431,
0x3b3b3b3b3b4e3b3b3b3b3b4c3b303b6f533b534f47595a20414f524843204c4f424d5953204c41434953554d20454e49544e415a59423b3843304431,
0x3b3b3b3b3b4e3b3b3b3b3b4c3b303b6f533b4e4f54494c4b20414f524843204c4f424d5953204c41434953554d20454e49544e415a59423b3943304431,
0x3b3b3b3b3b4e3b3b3b3b3b4c3b303b6f533b49485441505320414f524843204c4f424d5953204c41434953554d20454e49544e415a59423b4143304431,
0x3b3b3b3b3b4e3b3b3b3b3b4c3b303b6f533b4e4f49524f4d495452415445542053495345465920492041524f485446204c4f424d5953204c41434953554d20454e49544e415a59423b4243304431,
0x3b3b3b3b3b4e3b3b3b3b3b4c3b303b6f533b41494e4f4649544e4120534f494e4f4d52414e452041524f485446204c4f424d5953204c41434953554d20454e49544e415a59423b4343304431,
0x3b3b3b3b3b4e3b3b3b3b3b4c3b303b6f533b4e4f49524f4d495449525420534953454659204c4f424d5953204c41434953554d20454e49544e415a59423b4443304431,
0x3b3b3b3b3b4e3b3b3b3b3b4c3b303b6f533b4e4f49524f4d495449525420534953454944204c4f424d5953204c41434953554d20454e49544e415a59423b4543304431,
0x3b3b3b3b3b4e3b3b3b3b3b4c3b303b6f533b4e4f49524f4d4954524154455420534953454944204c4f424d5953204c41434953554d20454e49544e415a59423b4643304431,
0x3b3b3b3b3b4e3b3b3b3b3b4c3b303b6f533b4154414b45444f44204f594420494c504120534953454944204c4f424d5953204c41434953554d20454e49544e415a59423b3044304431,
0x3b3b3b3b3b4e3b3b3b3b3b4c3b303b6f533b4154414b45444f44204152455353455420534f4d4d4152474f4e4f4d20534953454944204c4f424d5953204c41434953554d20454e49544e415a59423b3144304431,
0x3b3b3b3b3b4e3b3b3b3b3b4c3b303b6f533b4154414b45444f4420584520534f4d4d415247494420534953454944204c4f424d5953204c41434953554d20454e49544e415a59423b3244304431,
0x3b3b3b3b3b4e3b3b3b3b3b4c3b303b6f533b4154414b45444f44204f544b4f20534f4d4d41524749525420534953454944204c4f424d5953204c41434953554d20454e49544e415a59423b3344304431,
0x3b3b3b3b3b4e3b3b3b3b3b4c3b303b6f533b4154414b45444f44204f594420494c504120534953454659204c4f424d5953204c41434953554d20454e49544e415a59423b3444304431,
0x3b3b3b3b3b4e3b3b3b3b3b4c3b303b6f533b4154414b45444f44204152455353455420534f4d4d4152474f4e4f4d20534953454659204c4f424d5953204c41434953554d20454e49544e415a59423b3544304431,
0x3b3b3b3b3b4e3b3b3b3b3b4c3b303b6f533b4154414b45444f4420584520534f4d4d415247494420534953454659204c4f424d5953204c41434953554d20454e49544e415a59423b3644304431,
0x3b3b3b3b3b4e3b3b3b3b3b4c3b303b6f533b4154414b45444f44204f544b4f20534f4d4d41524749525420534953454659204c4f424d5953204c41434953554d20454e49544e415a59423b3744304431,
0x3b3b3b3b3b4e3b3b3b3b3b4c3b303b6f533b53495345494420494b494e4547204c4f424d5953204c41434953554d20454e49544e415a59423b3844304431,
0x3b3b3b3b3b4e3b3b3b3b3b4c3b303b6f533b53495345465920494b494e4547204c4f424d5953204c41434953554d20454e49544e415a59423b3944304431,
0x3b3b3b3b3b4e3b3b3b3b3b4c3b303b6f533b49524b494d20494c504120494c4f5453414944204c4f424d5953204c41434953554d20454e49544e415a59423b4144304431,
0x3b3b3b3b3b4e3b3b3b3b3b4c3b303b6f533b494c4147454d20494c504120494c4f5453414944204c4f424d5953204c41434953554d20454e49544e415a59423b4244304431,
0x3b3b3b3b3b4e3b3b3b3b3b4c3b303b6f533b494c50494420494c4f5453414944204c4f424d5953204c41434953554d20454e49544e415a59423b4344304431,
0x3b3b3b3b3b4e3b3b3b3b3b4c3b303b6f533b534f455345485420494c4f5453414944204c4f424d5953204c41434953554d20454e49544e415a59423b4444304431,
0x3b3b3b3b3b4e3b3b3b3b3b4c3b303b6f533b534f4553454854205349534e414d4953204c4f424d5953204c41434953554d20454e49544e415a59423b4544304431,
0x3b3b3b3b3b4e3b3b3b3b3b4c3b303b6f533b554f4d4953494420534f4553454854205349534e414d4953204c4f424d5953204c41434953554d20454e49544e415a59423b4644304431,
0x3b3b3b3b3b4e3b3b3b3b3b4c3b303b6f533b554f4d495349525420534f4553454854205349534e414d4953204c4f424d5953204c41434953554d20454e49544e415a59423b3045304431,
0x3b3b3b3b3b4e3b3b3b3b3b4c3b303b6f533b554f4d4953415254455420534f4553454854205349534e414d4953204c4f424d5953204c41434953554d20454e49544e415a59423b3145304431,
0x3b3b3b3b3b4e3b3b3b3b3b4c3b303b6f533b534f45535241205349534e414d4953204c4f424d5953204c41434953554d20454e49544e415a59423b3245304431,
0x3b3b3b3b3b4e3b3b3b3b3b4c3b303b6f533b554f4d4953494420534f45535241205349534e414d4953204c4f424d5953204c41434953554d20454e49544e415a59423b3345304431,
0x3b3b3b3b3b4e3b3b3b3b3b4c3b303b6f533b554f4d495349525420534f45535241205349534e414d4953204c4f424d5953204c41434953554d20454e49544e415a59423b3445304431,
0x3b3b3b3b3b4e3b3b3b3b3b4c3b303b6f533b554f4d4953415254455420534f45535241205349534e414d4953204c4f424d5953204c41434953554d20454e49544e415a59423b3545304431,
0x3b3b3b3b3b4e3b3b3b3b3b4c3b303b6f533b474720414d4d4152474944204c4f424d5953204c41434953554d20454e49544e415a59423b3645304431,
0x3b3b3b3b3b4e3b3b3b3b3b4c3b303b6f533b554f20534f47474f54464944204c4f424d5953204c41434953554d20454e49544e415a59423b3745304431,
0x3b3b3b3b3b4e3b3b3b3b3b4c3b303b6f533b414d47495453204c4f424d5953204c41434953554d20454e49544e415a59423b3845304431,
0x3b3b3b3b3b4e3b3b3b3b3b4c3b303b6f533b4150204f4b49544b5241204c4f424d5953204c41434953554d20454e49544e415a59423b3945304431,
0x3b3b3b3b3b4e3b3b3b3b3b4c3b303b6f533b554f56204f4b49544b5241204c4f424d5953204c41434953554d20454e49544e415a59423b4145304431,
0x3b3b3b3b3b4e3b3b3b3b3b4c3b303b6f533b4147204f4b49544b5241204c4f424d5953204c41434953554d20454e49544e415a59423b4245304431,
0x3b3b3b3b3b4e3b3b3b3b3b4c3b303b6f533b4944204f4b49544b5241204c4f424d5953204c41434953554d20454e49544e415a59423b4345304431,
0x3b3b3b3b3b4e3b3b3b3b3b4c3b303b6f533b454b204f4b49544b5241204c4f424d5953204c41434953554d20454e49544e415a59423b4445304431,
0x3b3b3b3b3b4e3b3b3b3b3b4c3b303b6f533b4f5a204f4b49544b5241204c4f424d5953204c41434953554d20454e49544e415a59423b4545304431,
0x3b3b3b3b3b4e3b3b3b3b3b4c3b303b6f533b494e204f4b49544b5241204c4f424d5953204c41434953554d20454e49544e415a59423b4645304431,
0x3b3b3b3b3b4e3b3b3b3b3b4c3b303b6f533b4f53454d204f454e204154414d49544e454b204c4f424d5953204c41434953554d20454e49544e415a59423b3046304431,
0x3b3b3b3b3b4e3b3b3b3b3b4c3b303b6f533b4f53454d204f454e20414d49544e454b204c4f424d5953204c41434953554d20454e49544e415a59423b3146304431,
0x3b3b3b3b3b4e3b3b3b3b3b4c3b303b6f533b4f54414b204f454e204154414d49544e454b204c4f424d5953204c41434953554d20454e49544e415a59423b3246304431,
0x3b3b3b3b3b4e3b3b3b3b3b4c3b303b6f533b4f54414b204f454e20414d49544e454b204c4f424d5953204c41434953554d20454e49544e415a59423b3346304431,
0x3b3b3b3b3b4e3b3b3b3b3b4c3b303b6f533b4f54414b20414d53414c4b204c4f424d5953204c41434953554d20454e49544e415a59423b3446304431,
0x3b3b3b3b3b4e3b3b3b3b3b4c3b303b6f533b4f54414b204f454e204e4f47524f47204c4f424d5953204c41434953554d20454e49544e415a59423b3546304431,
0x3b3b3b3b3b4e3b3b3b3b3b4c3b303b6f533b454e494c52414220454c474e4953204c4f424d5953204c41434953554d3b3030314431,
0x3b3b3b3b3b4e3b3b3b3b3b4c3b303b6f533b454e494c52414220454c42554f44204c4f424d5953204c41434953554d3b3130314431,
0x3b3b3b3b3b4e3b3b3b3b3b4c3b303b6f533b454e494c524142204c414e4946204c4f424d5953204c41434953554d3b3230314431,
0x3b3b3b3b3b4e3b3b3b3b3b4c3b303b6f533b454e494c524142204c414e49462045535245564552204c4f424d5953204c41434953554d3b3330314431,
0x3b3b3b3b3b4e3b3b3b3b3b4c3b303b6f533b454e494c52414220444548534144204c4f424d5953204c41434953554d3b3430314431,
0x3b3b3b3b3b4e3b3b3b3b3b4c3b303b6f533b454e494c5241422054524f4853204c4f424d5953204c41434953554d3b3530314431,
0x3b3b3b3b3b4e3b3b3b3b3b4c3b303b6f533b4e47495320544145504552205446454c204c4f424d5953204c41434953554d3b3630314431,
0x3b3b3b3b3b4e3b3b3b3b3b4c3b303b6f533b4e47495320544145504552205448474952204c4f424d5953204c41434953554d3b3730314431,
0x3b3b3b3b3b4e3b3b3b3b3b4c3b303b6f533b53544f4420544145504552204c4f424d5953204c41434953554d3b3830314431,
0x3b3b3b3b3b4e3b3b3b3b3b4c3b303b6f533b4f4e474553204c4144204c4f424d5953204c41434953554d3b3930314431,
0x3b3b3b3b3b4e3b3b3b3b3b4c3b303b6f533b4f504143204144204c4f424d5953204c41434953554d3b4130314431,
0x3b3b3b3b3b4e3b3b3b3b3b4c3b303b6f533b4f4e474553204c4f424d5953204c41434953554d3b4230314431,
0x3b3b3b3b3b4e3b3b3b3b3b4c3b303b6f533b41444f43204c4f424d5953204c41434953554d3b4330314431,
0x3b3b3b3b3b4e3b3b3b3b3b4c3b303b6f533b312d455255474946204445544145504552204c4f424d5953204c41434953554d3b4430314431,
0x3b3b3b3b3b4e3b3b3b3b3b4c3b303b6f533b322d455255474946204445544145504552204c4f424d5953204c41434953554d3b4530314431,
0x3b3b3b3b3b4e3b3b3b3b3b4c3b303b6f533b332d455255474946204445544145504552204c4f424d5953204c41434953554d3b4630314431,
0x3b3b3b3b3b4e3b3b3b3b3b4c3b303b6f533b4154414d524546204c4f424d5953204c41434953554d3b3031314431,
0x3b3b3b3b3b4e3b3b3b3b3b4c3b303b6f533b574f4c4542204154414d524546204c4f424d5953204c41434953554d3b3131314431,
0x3b3b3b3b3b4e3b3b3b3b3b4c3b303b6f533b4b52414d20485441455242204c4f424d5953204c41434953554d3b3231314431,
0x3b3b3b3b3b4e3b3b3b3b3b4c3b303b6f533b41525553454143204c4f424d5953204c41434953554d3b3331314431,
0x3b3b3b3b3b4e3b3b3b3b3b4c3b303b6f533b4543415242204c4f424d5953204c41434953554d3b3431314431,
0x3b3b3b3b3b4e3b3b3b3b3b4c3b303b6f533b54454b43415242204c4f424d5953204c41434953554d3b3531314431,
0x3b3b3b3b3b4e3b3b3b3b3b4c3b303b6f533b464641545320454e494c2d454e4f204c4f424d5953204c41434953554d3b3631314431,
0x3b3b3b3b3b4e3b3b3b3b3b4c3b303b6f533b464641545320454e494c2d4f5754204c4f424d5953204c41434953554d3b3731314431,
0x3b3b3b3b3b4e3b3b3b3b3b4c3b303b6f533b464641545320454e494c2d4545524854204c4f424d5953204c41434953554d3b3831314431,
0x3b3b3b3b3b4e3b3b3b3b3b4c3b303b6f533b464641545320454e494c2d52554f46204c4f424d5953204c41434953554d3b3931314431,
0x3b3b3b3b3b4e3b3b3b3b3b4c3b303b6f533b464641545320454e494c2d45564946204c4f424d5953204c41434953554d3b4131314431,
0x3b3b3b3b3b4e3b3b3b3b3b4c3b303b6f533b464641545320454e494c2d584953204c4f424d5953204c41434953554d3b4231314431,
0x3b3b3b3b3b4e3b3b3b3b3b4c3b303b6f533b4452414f425445524620474e495254532d584953204c4f424d5953204c41434953554d3b4331314431,
0x3b3b3b3b3b4e3b3b3b3b3b4c3b303b6f533b4452414f425445524620474e495254532d52554f46204c4f424d5953204c41434953554d3b4431314431,
0x3b3b3b3b3b4e3b3b3b3b3b4c3b303b6f533b46454c432047204c4f424d5953204c41434953554d3b4531314431,
0x3b3b3b3b3b4e3b3b3b3b3b4c3b303b6f533b41544c412041564154544f2046454c432047204c4f424d5953204c41434953554d3b4631314431,
0x3b3b3b3b3b4e3b3b3b3b3b4c3b303b6f533b41535341422041564154544f2046454c432047204c4f424d5953204c41434953554d3b3032314431,
0x3b3b3b3b3b4e3b3b3b3b3b4c3b303b6f533b46454c432043204c4f424d5953204c41434953554d3b3132314431,
0x3b3b3b3b3b4e3b3b3b3b3b4c3b303b6f533b46454c432046204c4f424d5953204c41434953554d3b3232314431,
0x3b3b3b3b3b4e3b3b3b3b3b4c3b303b6f533b41544c412041564154544f2046454c432046204c4f424d5953204c41434953554d3b3332314431,
0x3b3b3b3b3b4e3b3b3b3b3b4c3b303b6f533b41535341422041564154544f2046454c432046204c4f424d5953204c41434953554d3b3432314431,
0x3b3b3b3b3b4e3b3b3b3b3b4c3b303b6f533b312d46454c43204d555244204c4f424d5953204c41434953554d3b3532314431,
0x3b3b3b3b3b4e3b3b3b3b3b4c3b303b6f533b322d46454c43204d555244204c4f424d5953204c41434953554d3b3632314431,
0x3b3b3b3b3b4e3b3b3b3b3b4c3b303b6f533b54534552204552555341454d20454c5049544c554d204c4f424d5953204c41434953554d3b3932314431,
0x3b3b3b3b3b4e3b3b3b3b3b4c3b303b6f533b505241485320454c42554f44204c4f424d5953204c41434953554d3b4132314431,
0x3b3b3b3b3b4e3b3b3b3b3b4c3b303b6f533b54414c4620454c42554f44204c4f424d5953204c41434953554d3b4232314431,
0x3b3b3b3b3b4e3b3b3b3b3b4c3b303b6f533b50552054414c46204c4f424d5953204c41434953554d3b4332314431,
0x3b3b3b3b3b4e3b3b3b3b3b4c3b303b6f533b4e574f442054414c46204c4f424d5953204c41434953554d3b4432314431,
0x3b3b3b3b3b4e3b3b3b3b3b4c3b303b6f533b5055204c41525554414e204c4f424d5953204c41434953554d3b4532314431,
0x3b3b3b3b3b4e3b3b3b3b3b4c3b303b6f533b4e574f44204c41525554414e204c4f424d5953204c41434953554d3b4632314431,
0x3b3b3b3b3b4e3b3b3b3b3b4c3b303b6f533b5055205052414853204c4f424d5953204c41434953554d3b3033314431,
0x3b3b3b3b3b4e3b3b3b3b3b4c3b303b6f533b4e574f44205052414853204c4f424d5953204c41434953554d3b3133314431,
0x3b3b3b3b3b4e3b3b3b3b3b4c3b303b6f533b505241485320454e4f542052455452415551204c4f424d5953204c41434953554d3b3233314431,
0x3b3b3b3b3b4e3b3b3b3b3b4c3b303b6f533b54414c4620454e4f542052455452415551204c4f424d5953204c41434953554d3b3333314431,
0x3b3b3b3b3b4e3b3b3b3b3b4c3b303b6f533b454d4954204e4f4d4d4f43204c4f424d5953204c41434953554d3b3433314431,
0x3b3b3b3b3b4e3b3b3b3b3b4c3b303b6f533b454d495420545543204c4f424d5953204c41434953554d3b3533314431,
0x3b3b3b3b3b4e3b3b3b3b3b4c3b303b6f533b41544c412041564154544f204c4f424d5953204c41434953554d3b3633314431,
0x3b3b3b3b3b4e3b3b3b3b3b4c3b303b6f533b41535341422041564154544f204c4f424d5953204c41434953554d3b3733314431,
0x3b3b3b3b3b4e3b3b3b3b3b4c3b303b6f533b41544c4120414d4953454349444e495551204c4f424d5953204c41434953554d3b3833314431,
0x3b3b3b3b3b4e3b3b3b3b3b4c3b303b6f533b415353414220414d4953454349444e495551204c4f424d5953204c41434953554d3b3933314431,
0x3b3b3b3b3b4e3b3b3b3b3b4c3b303b6f533b545345522049544c554d204c4f424d5953204c41434953554d3b4133314431,
0x3b3b3b3b3b4e3b3b3b3b3b4c3b303b6f533b5453455220454c4f4857204c4f424d5953204c41434953554d3b4233314431,
0x3b3b3b3b3b4e3b3b3b3b3b4c3b303b6f533b5453455220464c4148204c4f424d5953204c41434953554d3b4333314431,
0x3b3b3b3b3b4e3b3b3b3b3b4c3b303b6f533b545345522052455452415551204c4f424d5953204c41434953554d3b4433314431,
0x3b3b3b3b3b4e3b3b3b3b3b4c3b303b6f533b5453455220485448474945204c4f424d5953204c41434953554d3b4533314431,
0x3b3b3b3b3b4e3b3b3b3b3b4c3b303b6f533b545345522048544e454554584953204c4f424d5953204c41434953554d3b4633314431,
0x3b3b3b3b3b4e3b3b3b3b3b4c3b303b6f533b5453455220444e4f4345532d595452494854204c4f424d5953204c41434953554d3b3034314431,
0x3b3b3b3b3b4e3b3b3b3b3b4c3b303b6f533b5453455220485452554f462d5954584953204c4f424d5953204c41434953554d3b3134314431,
0x3b3b3b3b3b4e3b3b3b3b3b4c3b303b6f533b54534552204854484749452d59544e45575420444552444e554820454e4f204c4f424d5953204c41434953554d3b3234314431,
0x3b3b3b3b3b4e3b3b3b3b3b4c3b303b6f533b4441454845544f4e2058204c4f424d5953204c41434953554d3b3334314431,
0x3b3b3b3b3b4e3b3b3b3b3b4c3b303b6f533b4441454845544f4e2053554c50204c4f424d5953204c41434953554d3b3434314431,
0x3b3b3b3b3b4e3b3b3b3b3b4c3b303b6f533b4441454845544f4e205820454c43524943204c4f424d5953204c41434953554d3b3534314431,
0x3b3b3b3b3b4e3b3b3b3b3b4c3b303b6f533b4554494857204441454845544f4e20455241555153204c4f424d5953204c41434953554d3b3634314431,
0x3b3b3b3b3b4e3b3b3b3b3b4c3b303b6f533b4b43414c42204441454845544f4e20455241555153204c4f424d5953204c41434953554d3b3734314431,
0x3b3b3b3b3b4e3b3b3b3b3b4c3b303b6f533b4554494857205055204441454845544f4e20454c474e41495254204c4f424d5953204c41434953554d3b3834314431,
0x3b3b3b3b3b4e3b3b3b3b3b4c3b303b6f533b4b43414c42205055204441454845544f4e20454c474e41495254204c4f424d5953204c41434953554d3b3934314431,
0x3b3b3b3b3b4e3b3b3b3b3b4c3b303b6f533b4554494857205446454c204441454845544f4e20454c474e41495254204c4f424d5953204c41434953554d3b4134314431,
0x3b3b3b3b3b4e3b3b3b3b3b4c3b303b6f533b4b43414c42205446454c204441454845544f4e20454c474e41495254204c4f424d5953204c41434953554d3b4234314431,
0x3b3b3b3b3b4e3b3b3b3b3b4c3b303b6f533b4554494857205448474952204441454845544f4e20454c474e41495254204c4f424d5953204c41434953554d3b4334314431,
0x3b3b3b3b3b4e3b3b3b3b3b4c3b303b6f533b4b43414c42205448474952204441454845544f4e20454c474e41495254204c4f424d5953204c41434953554d3b4434314431,
0x3b3b3b3b3b4e3b3b3b3b3b4c3b303b6f533b4554494857204e574f44204441454845544f4e20454c474e41495254204c4f424d5953204c41434953554d3b4534314431,
0x3b3b3b3b3b4e3b3b3b3b3b4c3b303b6f533b4b43414c42204e574f44204441454845544f4e20454c474e41495254204c4f424d5953204c41434953554d3b4634314431,
0x3b3b3b3b3b4e3b3b3b3b3b4c3b303b6f533b4554494857205448474952205055204441454845544f4e20454c474e41495254204c4f424d5953204c41434953554d3b3035314431,
0x3b3b3b3b3b4e3b3b3b3b3b4c3b303b6f533b4b43414c42205448474952205055204441454845544f4e20454c474e41495254204c4f424d5953204c41434953554d3b3135314431,
0x3b3b3b3b3b4e3b3b3b3b3b4c3b303b6f533b4554494857204441454845544f4e204e4f4f4d204c4f424d5953204c41434953554d3b3235314431,
0x3b3b3b3b3b4e3b3b3b3b3b4c3b303b6f533b4b43414c42204441454845544f4e204e4f4f4d204c4f424d5953204c41434953554d3b3335314431,
0x3b3b3b3b3b4e3b3b3b3b3b4c3b303b6f533b4554494857204e574f44204441454845544f4e20444e554f522d454c474e41495254204c4f424d5953204c41434953554d3b3435314431,
0x3b3b3b3b3b4e3b3b3b3b3b4c3b303b6f533b4b43414c42204e574f44204441454845544f4e20444e554f522d454c474e41495254204c4f424d5953204c41434953554d3b3535314431,
0x3b3b3b3b3b4e3b3b3b3b3b4c3b303b6f533b4441454845544f4e205349534548544e45524150204c4f424d5953204c41434953554d3b3635314431,
0x3b3b3b3b3b4e3b3b3b3b3b4c3b303b6f533b4441454845544f4e2044494f56204c4f424d5953204c41434953554d3b3735314431,
0x3b3b3b3b3b4e3b3b3b3b3b4c3b303b6f533b4b43414c42204441454845544f4e204c4f424d5953204c41434953554d3b3835314431,
0x3b3b3b3b3b4e3b3b3b3b3b4c3b303b6f533b4441454845544f4e204c4c554e204c4f424d5953204c41434953554d3b3935314431,
0x3b3b3b3b3b4e3b3b3b3b3b4c3b303b6f533b4554494857204441454845544f4e2052455453554c43204c4f424d5953204c41434953554d3b4135314431,
0x3b3b3b3b3b4e3b3b3b3b3b4c3b303b6f533b4b43414c42204441454845544f4e2052455453554c43204c4f424d5953204c41434953554d3b4235314431,
0x3b3b3b3b3b4e3b3b3b3b3b4c3b303b6f533b4556455242204c4f424d5953204c41434953554d3b4335314431,
0x3b3b3b3b3b4e3b3b3b3b3b4c3b303b6f533b45544f4e20454c4f4857204c4f424d5953204c41434953554d3b4435314431,
0x3b3b3b3b3b4e3b3b3b3b35363144312037353144313b4c3b303b6f533b45544f4e20464c4148204c4f424d5953204c41434953554d3b4535314431,
0x3b3b3b3b3b4e3b3b3b3b35363144312038353144313b4c3b303b6f533b45544f4e2052455452415551204c4f424d5953204c41434953554d3b4635314431,
0x3b3b3b3b3b4e3b3b3b3b45363144312046353144313b4c3b303b6f533b45544f4e20485448474945204c4f424d5953204c41434953554d3b3036314431,
0x3b3b3b3b3b4e3b3b3b3b46363144312046353144313b4c3b303b6f533b45544f4e2048544e454554584953204c4f424d5953204c41434953554d3b3136314431,
0x3b3b3b3b3b4e3b3b3b3b30373144312046353144313b4c3b303b6f533b45544f4e20444e4f4345532d595452494854204c4f424d5953204c41434953554d3b3236314431,
0x3b3b3b3b3b4e3b3b3b3b31373144312046353144313b4c3b303b6f533b45544f4e20485452554f462d5954584953204c4f424d5953204c41434953554d3b3336314431,
0x3b3b3b3b3b4e3b3b3b3b32373144312046353144313b4c3b303b6f533b45544f4e204854484749452d59544e45575420444552444e554820454e4f204c4f424d5953204c41434953554d3b3436314431,
0x3b3b3b3b3b4e3b3b3b3b3b4c3b3631323b634d3b4d45545320474e494e49424d4f43204c4f424d5953204c41434953554d3b3536314431,
0x3b3b3b3b3b4e3b3b3b3b3b4c3b3631323b634d3b4d45545320474e4153454748434552505320474e494e49424d4f43204c4f424d5953204c41434953554d3b3636314431,
0x3b3b3b3b3b4e3b3b3b3b3b4d534e3b313b6e4d3b312d4f4c4f4d45525420474e494e49424d4f43204c4f424d5953204c41434953554d3b3736314431,
0x3b3b3b3b3b4e3b3b3b3b3b4d534e3b313b6e4d3b322d4f4c4f4d45525420474e494e49424d4f43204c4f424d5953204c41434953554d3b3836314431]

/-- src/u5e/props/UnicodeData.txt lines 25345-25600. -/
def rawUcd99 : List Nat := [
0x3b3b3b3b3b4e3b3b3b3b3b4d534e3b313b6e4d3b332d4f4c4f4d45525420474e494e49424d4f43204c4f424d5953204c41434953554d3b3936314431,
0x3b3b3b3b3b4e3b3b3b3b3b4c3b303b6f533b312d4f4c4f4d4552542044455245474e4946204c4f424d5953204c41434953554d3b4136314431,
0x3b3b3b3b3b4e3b3b3b3b3b4c3b303b6f533b322d4f4c4f4d4552542044455245474e4946204c4f424d5953204c41434953554d3b4236314431,
0x3b3b3b3b3b4e3b3b3b3b3b4c3b303b6f533b332d4f4c4f4d4552542044455245474e4946204c4f424d5953204c41434953554d3b4336314431,
0x3b3b3b3b3b4e3b3b3b3b3b4c3b3632323b634d3b544f44204e4f495441544e454d47554120474e494e49424d4f43204c4f424d5953204c41434953554d3b4436314431,
0x3b3b3b3b3b4e3b3b3b3b3b4c3b3631323b634d3b312d47414c4620474e494e49424d4f43204c4f424d5953204c41434953554d3b4536314431,
0x3b3b3b3b3b4e3b3b3b3b3b4c3b3631323b634d3b322d47414c4620474e494e49424d4f43204c4f424d5953204c41434953554d3b4636314431,
0x3b3b3b3b3b4e3b3b3b3b3b4c3b3631323b634d3b332d47414c4620474e494e49424d4f43204c4f424d5953204c41434953554d3b3037314431,
0x3b3b3b3b3b4e3b3b3b3b3b4c3b3631323b634d3b342d47414c4620474e494e49424d4f43204c4f424d5953204c41434953554d3b3137314431,
0x3b3b3b3b3b4e3b3b3b3b3b4c3b3631323b634d3b352d47414c4620474e494e49424d4f43204c4f424d5953204c41434953554d3b3237314431,
0x3b3b3b3b3b4e3b3b3b3b3b4e423b303b66433b4d414542204e49474542204c4f424d5953204c41434953554d3b3337314431,
0x3b3b3b3b3b4e3b3b3b3b3b4e423b303b66433b4d41454220444e45204c4f424d5953204c41434953554d3b3437314431,
0x3b3b3b3b3b4e3b3b3b3b3b4e423b303b66433b454954204e49474542204c4f424d5953204c41434953554d3b3537314431,
0x3b3b3b3b3b4e3b3b3b3b3b4e423b303b66433b45495420444e45204c4f424d5953204c41434953554d3b3637314431,
0x3b3b3b3b3b4e3b3b3b3b3b4e423b303b66433b52554c53204e49474542204c4f424d5953204c41434953554d3b3737314431,
0x3b3b3b3b3b4e3b3b3b3b3b4e423b303b66433b52554c5320444e45204c4f424d5953204c41434953554d3b3837314431,
0x3b3b3b3b3b4e3b3b3b3b3b4e423b303b66433b455341524850204e49474542204c4f424d5953204c41434953554d3b3937314431,
0x3b3b3b3b3b4e3b3b3b3b3b4e423b303b66433b45534152485020444e45204c4f424d5953204c41434953554d3b4137314431,
0x3b3b3b3b3b4e3b3b3b3b3b4d534e3b3032323b6e4d3b544e4543434120474e494e49424d4f43204c4f424d5953204c41434953554d3b4237314431,
0x3b3b3b3b3b4e3b3b3b3b3b4d534e3b3032323b6e4d3b4f5441434341545320474e494e49424d4f43204c4f424d5953204c41434953554d3b4337314431,
0x3b3b3b3b3b4e3b3b3b3b3b4d534e3b3032323b6e4d3b4f54554e455420474e494e49424d4f43204c4f424d5953204c41434953554d3b4437314431,
0x3b3b3b3b3b4e3b3b3b3b3b4d534e3b3032323b6e4d3b4f4d495353495441434341545320474e494e49424d4f43204c4f424d5953204c41434953554d3b4537314431,
0x3b3b3b3b3b4e3b3b3b3b3b4d534e3b3032323b6e4d3b4f54414352414d20474e494e49424d4f43204c4f424d5953204c41434953554d3b4637314431,
0x3b3b3b3b3b4e3b3b3b3b3b4d534e3b3032323b6e4d3b4f544143434154532d4f54414352414d20474e494e49424d4f43204c4f424d5953204c41434953554d3b3038314431,
0x3b3b3b3b3b4e3b3b3b3b3b4d534e3b3032323b6e4d3b4f544143434154532d544e4543434120474e494e49424d4f43204c4f424d5953204c41434953554d3b3138314431,
0x3b3b3b3b3b4e3b3b3b3b3b4d534e3b3032323b6e4d3b4552554f4c20474e494e49424d4f43204c4f424d5953204c41434953554d3b3238314431,
0x3b3b3b3b3b4e3b3b3b3b3b4c3b303b6f533b5055204f544149474745505241204c4f424d5953204c41434953554d3b3338314431,
0x3b3b3b3b3b4e3b3b3b3b3b4c3b303b6f533b4e574f44204f544149474745505241204c4f424d5953204c41434953554d3b3438314431,
0x3b3b3b3b3b4e3b3b3b3b3b4d534e3b3033323b6e4d3b54494f4420474e494e49424d4f43204c4f424d5953204c41434953554d3b3538314431,
0x3b3b3b3b3b4e3b3b3b3b3b4d534e3b3033323b6e4d3b50495220474e494e49424d4f43204c4f424d5953204c41434953554d3b3638314431,
0x3b3b3b3b3b4e3b3b3b3b3b4d534e3b3033323b6e4d3b50494c4620474e494e49424d4f43204c4f424d5953204c41434953554d3b3738314431,
0x3b3b3b3b3b4e3b3b3b3b3b4d534e3b3033323b6e4d3b5241454d5320474e494e49424d4f43204c4f424d5953204c41434953554d3b3838314431,
0x3b3b3b3b3b4e3b3b3b3b3b4d534e3b3033323b6e4d3b444e454220474e494e49424d4f43204c4f424d5953204c41434953554d3b3938314431,
0x3b3b3b3b3b4e3b3b3b3b3b4d534e3b3032323b6e4d3b4555474e4f5420454c42554f4420474e494e49424d4f43204c4f424d5953204c41434953554d3b4138314431,
0x3b3b3b3b3b4e3b3b3b3b3b4d534e3b3032323b6e4d3b4555474e4f5420454c5049525420474e494e49424d4f43204c4f424d5953204c41434953554d3b4238314431,
0x3b3b3b3b3b4e3b3b3b3b3b4c3b303b6f533b4f444e415a524f464e4952204c4f424d5953204c41434953554d3b4338314431,
0x3b3b3b3b3b4e3b3b3b3b3b4c3b303b6f533b4f5449425553204c4f424d5953204c41434953554d3b4438314431,
0x3b3b3b3b3b4e3b3b3b3b3b4c3b303b6f533b5a204c4f424d5953204c41434953554d3b4538314431,
0x3b3b3b3b3b4e3b3b3b3b3b4c3b303b6f533b4f4e414950204c4f424d5953204c41434953554d3b4638314431,
0x3b3b3b3b3b4e3b3b3b3b3b4c3b303b6f533b4f5a5a454d204c4f424d5953204c41434953554d3b3039314431,
0x3b3b3b3b3b4e3b3b3b3b3b4c3b303b6f533b4554524f46204c4f424d5953204c41434953554d3b3139314431,
0x3b3b3b3b3b4e3b3b3b3b3b4c3b303b6f533b4f444e454353455243204c4f424d5953204c41434953554d3b3239314431,
0x3b3b3b3b3b4e3b3b3b3b3b4c3b303b6f533b4f444e4543534552434544204c4f424d5953204c41434953554d3b3339314431,
0x3b3b3b3b3b4e3b3b3b3b3b4c3b303b6f533b4853414c532045544f4e204543415247204c4f424d5953204c41434953554d3b3439314431,
0x3b3b3b3b3b4e3b3b3b3b3b4c3b303b6f533b4853414c53204f4e2045544f4e204543415247204c4f424d5953204c41434953554d3b3539314431,
0x3b3b3b3b3b4e3b3b3b3b3b4c3b303b6f533b5254204c4f424d5953204c41434953554d3b3639314431,
0x3b3b3b3b3b4e3b3b3b3b3b4c3b303b6f533b4e525554204c4f424d5953204c41434953554d3b3739314431,
0x3b3b3b3b3b4e3b3b3b3b3b4c3b303b6f533b4e525554204445545245564e49204c4f424d5953204c41434953554d3b3839314431,
0x3b3b3b3b3b4e3b3b3b3b3b4c3b303b6f533b4853414c53204e525554204c4f424d5953204c41434953554d3b3939314431,
0x3b3b3b3b3b4e3b3b3b3b3b4c3b303b6f533b5055204e525554204c4f424d5953204c41434953554d3b4139314431,
0x3b3b3b3b3b4e3b3b3b3b3b4c3b303b6f533b312d454b4f52545320544e454d414e524f204c4f424d5953204c41434953554d3b4239314431,
0x3b3b3b3b3b4e3b3b3b3b3b4c3b303b6f533b322d454b4f52545320544e454d414e524f204c4f424d5953204c41434953554d3b4339314431,
0x3b3b3b3b3b4e3b3b3b3b3b4c3b303b6f533b332d454b4f52545320544e454d414e524f204c4f424d5953204c41434953554d3b4439314431,
0x3b3b3b3b3b4e3b3b3b3b3b4c3b303b6f533b342d454b4f52545320544e454d414e524f204c4f424d5953204c41434953554d3b4539314431,
0x3b3b3b3b3b4e3b3b3b3b3b4c3b303b6f533b352d454b4f52545320544e454d414e524f204c4f424d5953204c41434953554d3b4639314431,
0x3b3b3b3b3b4e3b3b3b3b3b4c3b303b6f533b362d454b4f52545320544e454d414e524f204c4f424d5953204c41434953554d3b3041314431,
0x3b3b3b3b3b4e3b3b3b3b3b4c3b303b6f533b372d454b4f52545320544e454d414e524f204c4f424d5953204c41434953554d3b3141314431,
0x3b3b3b3b3b4e3b3b3b3b3b4c3b303b6f533b382d454b4f52545320544e454d414e524f204c4f424d5953204c41434953554d3b3241314431,
0x3b3b3b3b3b4e3b3b3b3b3b4c3b303b6f533b392d454b4f52545320544e454d414e524f204c4f424d5953204c41434953554d3b3341314431,
0x3b3b3b3b3b4e3b3b3b3b3b4c3b303b6f533b30312d454b4f52545320544e454d414e524f204c4f424d5953204c41434953554d3b3441314431,
0x3b3b3b3b3b4e3b3b3b3b3b4c3b303b6f533b31312d454b4f52545320544e454d414e524f204c4f424d5953204c41434953554d3b3541314431,
0x3b3b3b3b3b4e3b3b3b3b3b4c3b303b6f533b454d4d4954535450554148204c4f424d5953204c41434953554d3b3641314431,
0x3b3b3b3b3b4e3b3b3b3b3b4c3b303b6f533b454d4d4954534e4542454e204c4f424d5953204c41434953554d3b3741314431,
0x3b3b3b3b3b4e3b3b3b3b3b4c3b303b6f533b454d4d49545320464f20444e45204c4f424d5953204c41434953554d3b3841314431,
0x3b3b3b3b3b4e3b3b3b3b3b4c3b303b6f533b4853414c5320454552474544204c4f424d5953204c41434953554d3b3941314431,
0x3b3b3b3b3b4e3b3b3b3b3b4d534e3b3033323b6e4d3b574f42204e574f4420474e494e49424d4f43204c4f424d5953204c41434953554d3b4141314431,
0x3b3b3b3b3b4e3b3b3b3b3b4d534e3b3033323b6e4d3b574f4220505520474e494e49424d4f43204c4f424d5953204c41434953554d3b4241314431,
0x3b3b3b3b3b4e3b3b3b3b3b4d534e3b3033323b6e4d3b43494e4f4d52414820474e494e49424d4f43204c4f424d5953204c41434953554d3b4341314431,
0x3b3b3b3b3b4e3b3b3b3b3b4d534e3b3033323b6e4d3b4f544143495a5a49502050414e5320474e494e49424d4f43204c4f424d5953204c41434953554d3b4441314431,
0x3b3b3b3b3b4e3b3b3b3b3b4c3b303b6f533b4b52414d204c41444550204c4f424d5953204c41434953554d3b4541314431,
0x3b3b3b3b3b4e3b3b3b3b3b4c3b303b6f533b4b52414d205055204c41444550204c4f424d5953204c41434953554d3b4641314431,
0x3b3b3b3b3b4e3b3b3b3b3b4c3b303b6f533b4b52414d204c4144455020464c4148204c4f424d5953204c41434953554d3b3042314431,
0x3b3b3b3b3b4e3b3b3b3b3b4c3b303b6f533b5055204f444e415353494c47204c4f424d5953204c41434953554d3b3142314431,
0x3b3b3b3b3b4e3b3b3b3b3b4c3b303b6f533b4e574f44204f444e415353494c47204c4f424d5953204c41434953554d3b3242314431,
0x3b3b3b3b3b4e3b3b3b3b3b4c3b303b6f533b534c49414e5245474e49462048544957204c4f424d5953204c41434953554d3b3342314431,
0x3b3b3b3b3b4e3b3b3b3b3b4c3b303b6f533b504d4144204c4f424d5953204c41434953554d3b3442314431,
0x3b3b3b3b3b4e3b3b3b3b3b4c3b303b6f533b4c4c4120504d4144204c4f424d5953204c41434953554d3b3542314431,
0x3b3b3b3b3b4e3b3b3b3b3b4c3b303b6f533b414d4958414d204c4f424d5953204c41434953554d3b3642314431,
0x3b3b3b3b3b4e3b3b3b3b3b4c3b303b6f533b41474e4f4c204c4f424d5953204c41434953554d3b3742314431,
0x3b3b3b3b3b4e3b3b3b3b3b4c3b303b6f533b534956455242204c4f424d5953204c41434953554d3b3842314431,
0x3b3b3b3b3b4e3b3b3b3b3b4c3b303b6f533b455449485720534956455242494d4553204c4f424d5953204c41434953554d3b3942314431,
0x3b3b3b3b3b4e3b3b3b3b3b4c3b303b6f533b4b43414c4220534956455242494d4553204c4f424d5953204c41434953554d3b4142314431,
0x3b3b3b3b3b4e3b3b3b3b35363144312039423144313b4c3b303b6f533b414d494e494d204c4f424d5953204c41434953554d3b4242314431,
0x3b3b3b3b3b4e3b3b3b3b35363144312041423144313b4c3b303b6f533b4b43414c4220414d494e494d204c4f424d5953204c41434953554d3b4342314431,
0x3b3b3b3b3b4e3b3b3b3b45363144312042423144313b4c3b303b6f533b455449485720414d494e494d494d4553204c4f424d5953204c41434953554d3b4442314431,
0x3b3b3b3b3b4e3b3b3b3b45363144312043423144313b4c3b303b6f533b4b43414c4220414d494e494d494d4553204c4f424d5953204c41434953554d3b4542314431,
0x3b3b3b3b3b4e3b3b3b3b46363144312042423144313b4c3b303b6f533b45544948572041535546204c4f424d5953204c41434953554d3b4642314431,
0x3b3b3b3b3b4e3b3b3b3b46363144312043423144313b4c3b303b6f533b4b43414c422041535546204c4f424d5953204c41434953554d3b3043314431,
0x3b3b3b3b3b4e3b3b3b3b3b4c3b303b6f533b545345522041544345465245502041474e4f4c204c4f424d5953204c41434953554d3b3143314431,
0x3b3b3b3b3b4e3b3b3b3b3b4c3b303b6f533b545345522041544345465245504d492041474e4f4c204c4f424d5953204c41434953554d3b3243314431,
0x3b3b3b3b3b4e3b3b3b3b3b4c3b303b6f533b5453455220534956455242204c4f424d5953204c41434953554d3b3343314431,
0x3b3b3b3b3b4e3b3b3b3b3b4c3b303b6f533b5453455220534956455242494d4553204c4f424d5953204c41434953554d3b3443314431,
0x3b3b3b3b3b4e3b3b3b3b3b4c3b303b6f533b5453455220414d494e494d204c4f424d5953204c41434953554d3b3543314431,
0x3b3b3b3b3b4e3b3b3b3b3b4c3b303b6f533b5453455220414d494e494d494d4553204c4f424d5953204c41434953554d3b3643314431,
0x3b3b3b3b3b4e3b3b3b3b3b4c3b303b6f533b415443454652455020454e4f4954414c4f5250204d5543204d5554434546524550205355504d4554204c4f424d5953204c41434953554d3b3743314431,
0x3b3b3b3b3b4e3b3b3b3b3b4c3b303b6f533b41544345465245504d4920454e4f4954414c4f5250204d5543204d5554434546524550205355504d4554204c4f424d5953204c41434953554d3b3843314431,
0x3b3b3b3b3b4e3b3b3b3b3b4c3b303b6f533b312d4e4f4954554e494d494420415443454652455020454e4f4954414c4f5250204d5543204d5554434546524550205355504d4554204c4f424d5953204c41434953554d3b3943314431,
0x3b3b3b3b3b4e3b3b3b3b3b4c3b303b6f533b415443454652455020454e4f4954414c4f5250204d5543204d55544345465245504d49205355504d4554204c4f424d5953204c41434953554d3b4143314431,
0x3b3b3b3b3b4e3b3b3b3b3b4c3b303b6f533b41544345465245504d4920454e4f4954414c4f5250204d5543204d55544345465245504d49205355504d4554204c4f424d5953204c41434953554d3b4243314431,
0x3b3b3b3b3b4e3b3b3b3b3b4c3b303b6f533b312d4e4f4954554e494d49442041544345465245504d4920454e4f4954414c4f5250204d5543204d55544345465245504d49205355504d4554204c4f424d5953204c41434953554d3b4343314431,
0x3b3b3b3b3b4e3b3b3b3b3b4c3b303b6f533b322d4e4f4954554e494d49442041544345465245504d4920454e4f4954414c4f5250204d5543204d55544345465245504d49205355504d4554204c4f424d5953204c41434953554d3b4443314431,
0x3b3b3b3b3b4e3b3b3b3b3b4c3b303b6f533b332d4e4f4954554e494d49442041544345465245504d4920454e4f4954414c4f5250204d5543204d55544345465245504d49205355504d4554204c4f424d5953204c41434953554d3b4543314431,
0x3b3b3b3b3b4e3b3b3b3b3b4c3b303b6f533b58494f5243204c4f424d5953204c41434953554d3b4643314431,
0x3b3b3b3b3b4e3b3b3b3b3b4c3b303b6f533b46454c432043204e4149524f47455247204c4f424d5953204c41434953554d3b3044314431,
0x3b3b3b3b3b4e3b3b3b3b3b4c3b303b6f533b46454c432046204e4149524f47455247204c4f424d5953204c41434953554d3b3144314431,
0x3b3b3b3b3b4e3b3b3b3b3b4c3b303b6f533b4220455241555153204c4f424d5953204c41434953554d3b3244314431,
0x3b3b3b3b3b4e3b3b3b3b3b4c3b303b6f533b4147524956204c4f424d5953204c41434953554d3b3344314431,
0x3b3b3b3b3b4e3b3b3b3b3b4c3b303b6f533b53555441444f50204c4f424d5953204c41434953554d3b3444314431,
0x3b3b3b3b3b4e3b3b3b3b3b4c3b303b6f533b534956494c43204c4f424d5953204c41434953554d3b3544314431,
0x3b3b3b3b3b4e3b3b3b3b3b4c3b303b6f533b53554349444e414353204c4f424d5953204c41434953554d3b3644314431,
0x3b3b3b3b3b4e3b3b3b3b3b4c3b303b6f533b535543414d494c43204c4f424d5953204c41434953554d3b3744314431,
0x3b3b3b3b3b4e3b3b3b3b3b4c3b303b6f533b53554c5543524f54204c4f424d5953204c41434953554d3b3844314431,
0x3b3b3b3b3b4e3b3b3b3b3b4c3b303b6f533b535554434552524f50204c4f424d5953204c41434953554d3b3944314431,
0x3b3b3b3b3b4e3b3b3b3b3b4c3b303b6f533b535558454c4620535554434552524f50204c4f424d5953204c41434953554d3b4144314431,
0x3b3b3b3b3b4e3b3b3b3b3b4c3b303b6f533b535558454c462053554349444e414353204c4f424d5953204c41434953554d3b4244314431,
0x3b3b3b3b3b4e3b3b3b3b3b4c3b303b6f533b53554e4950555345522053554c5543524f54204c4f424d5953204c41434953554d3b4344314431,
0x3b3b3b3b3b4e3b3b3b3b3b4c3b303b6f533b534954434e555042555320534550204c4f424d5953204c41434953554d3b4444314431,
0x3b3b3b3b3b4e3b3b3b3b3b4c3b303b6f533b46454c432043204e415645494b204c4f424d5953204c41434953554d3b4544314431,
0x3b3b3b3b3b4e3b3b3b3b3b4c3b303b6f533b454345495020464f20444e45204e415645494b204c4f424d5953204c41434953554d3b4644314431,
0x3b3b3b3b3b4e3b3b3b3b3b4c3b303b6f533b45544f4e204c414e4946204e415645494b204c4f424d5953204c41434953554d3b3045314431,
0x3b3b3b3b3b4e3b3b3b3b3b4c3b303b6f533b4b52414d2045564954415449434552204e415645494b204c4f424d5953204c41434953554d3b3145314431,
0x3b3b3b3b3b4e3b3b3b3b3b4c3b303b6f533b45544f4e20454c4f4857204e415645494b204c4f424d5953204c41434953554d3b3245314431,
0x3b3b3b3b3b4e3b3b3b3b3b4c3b303b6f533b45544f4e20464c4148204e415645494b204c4f424d5953204c41434953554d3b3345314431,
0x3b3b3b3b3b4e3b3b3b3b3b4c3b303b6f533b4e574f44204d4554532045544f4e2052455452415551204e415645494b204c4f424d5953204c41434953554d3b3445314431,
0x3b3b3b3b3b4e3b3b3b3b3b4c3b303b6f533b5055204d4554532045544f4e2052455452415551204e415645494b204c4f424d5953204c41434953554d3b3545314431,
0x3b3b3b3b3b4e3b3b3b3b3b4c3b303b6f533b4e574f44204d4554532045544f4e20485448474945204e415645494b204c4f424d5953204c41434953554d3b3645314431,
0x3b3b3b3b3b4e3b3b3b3b3b4c3b303b6f533b5055204d4554532045544f4e20485448474945204e415645494b204c4f424d5953204c41434953554d3b3745314431,
0x3b3b3b3b3b4e3b3b3b3b3b4c3b303b6f533b4e4749532054414c46204e415645494b204c4f424d5953204c41434953554d3b3845314431,
0x3b3b3b3b3b4e3b3b3b3b3b4e4f3b303b6f533b312d4c4f424d5953204e4f495441544f4e204c41434f56204b454552473b3030324431,
0x3b3b3b3b3b4e3b3b3b3b3b4e4f3b303b6f533b322d4c4f424d5953204e4f495441544f4e204c41434f56204b454552473b3130324431,
0x3b3b3b3b3b4e3b3b3b3b3b4e4f3b303b6f533b332d4c4f424d5953204e4f495441544f4e204c41434f56204b454552473b3230324431,
0x3b3b3b3b3b4e3b3b3b3b3b4e4f3b303b6f533b342d4c4f424d5953204e4f495441544f4e204c41434f56204b454552473b3330324431,
0x3b3b3b3b3b4e3b3b3b3b3b4e4f3b303b6f533b352d4c4f424d5953204e4f495441544f4e204c41434f56204b454552473b3430324431,
0x3b3b3b3b3b4e3b3b3b3b3b4e4f3b303b6f533b362d4c4f424d5953204e4f495441544f4e204c41434f56204b454552473b3530324431,
0x3b3b3b3b3b4e3b3b3b3b3b4e4f3b303b6f533b372d4c4f424d5953204e4f495441544f4e204c41434f56204b454552473b3630324431,
0x3b3b3b3b3b4e3b3b3b3b3b4e4f3b303b6f533b382d4c4f424d5953204e4f495441544f4e204c41434f56204b454552473b3730324431,
0x3b3b3b3b3b4e3b3b3b3b3b4e4f3b303b6f533b392d4c4f424d5953204e4f495441544f4e204c41434f56204b454552473b3830324431,
0x3b3b3b3b3b4e3b3b3b3b3b4e4f3b303b6f533b30312d4c4f424d5953204e4f495441544f4e204c41434f56204b454552473b3930324431,
0x3b3b3b3b3b4e3b3b3b3b3b4e4f3b303b6f533b31312d4c4f424d5953204e4f495441544f4e204c41434f56204b454552473b4130324431,
0x3b3b3b3b3b4e3b3b3b3b3b4e4f3b303b6f533b32312d4c4f424d5953204e4f495441544f4e204c41434f56204b454552473b4230324431,
0x3b3b3b3b3b4e3b3b3b3b3b4e4f3b303b6f533b33312d4c4f424d5953204e4f495441544f4e204c41434f56204b454552473b4330324431,
0x3b3b3b3b3b4e3b3b3b3b3b4e4f3b303b6f533b34312d4c4f424d5953204e4f495441544f4e204c41434f56204b454552473b4430324431,
0x3b3b3b3b3b4e3b3b3b3b3b4e4f3b303b6f533b35312d4c4f424d5953204e4f495441544f4e204c41434f56204b454552473b4530324431,
0x3b3b3b3b3b4e3b3b3b3b3b4e4f3b303b6f533b36312d4c4f424d5953204e4f495441544f4e204c41434f56204b454552473b4630324431,
0x3b3b3b3b3b4e3b3b3b3b3b4e4f3b303b6f533b37312d4c4f424d5953204e4f495441544f4e204c41434f56204b454552473b3031324431,
0x3b3b3b3b3b4e3b3b3b3b3b4e4f3b303b6f533b38312d4c4f424d5953204e4f495441544f4e204c41434f56204b454552473b3131324431,
0x3b3b3b3b3b4e3b3b3b3b3b4e4f3b303b6f533b39312d4c4f424d5953204e4f495441544f4e204c41434f56204b454552473b3231324431,
0x3b3b3b3b3b4e3b3b3b3b3b4e4f3b303b6f533b30322d4c4f424d5953204e4f495441544f4e204c41434f56204b454552473b3331324431,
0x3b3b3b3b3b4e3b3b3b3b3b4e4f3b303b6f533b31322d4c4f424d5953204e4f495441544f4e204c41434f56204b454552473b3431324431,
0x3b3b3b3b3b4e3b3b3b3b3b4e4f3b303b6f533b32322d4c4f424d5953204e4f495441544f4e204c41434f56204b454552473b3531324431,
0x3b3b3b3b3b4e3b3b3b3b3b4e4f3b303b6f533b33322d4c4f424d5953204e4f495441544f4e204c41434f56204b454552473b3631324431,
0x3b3b3b3b3b4e3b3b3b3b3b4e4f3b303b6f533b34322d4c4f424d5953204e4f495441544f4e204c41434f56204b454552473b3731324431,
0x3b3b3b3b3b4e3b3b3b3b3b4e4f3b303b6f533b30352d4c4f424d5953204e4f495441544f4e204c41434f56204b454552473b3831324431,
0x3b3b3b3b3b4e3b3b3b3b3b4e4f3b303b6f533b31352d4c4f424d5953204e4f495441544f4e204c41434f56204b454552473b3931324431,
0x3b3b3b3b3b4e3b3b3b3b3b4e4f3b303b6f533b32352d4c4f424d5953204e4f495441544f4e204c41434f56204b454552473b4131324431,
0x3b3b3b3b3b4e3b3b3b3b3b4e4f3b303b6f533b33352d4c4f424d5953204e4f495441544f4e204c41434f56204b454552473b4231324431,
0x3b3b3b3b3b4e3b3b3b3b3b4e4f3b303b6f533b34352d4c4f424d5953204e4f495441544f4e204c41434f56204b454552473b4331324431,
0x3b3b3b3b3b4e3b3b3b3b3b4e4f3b303b6f533b312d4c4f424d5953204e4f495441544f4e204c41544e454d555254534e49204b454552473b4431324431,
0x3b3b3b3b3b4e3b3b3b3b3b4e4f3b303b6f533b322d4c4f424d5953204e4f495441544f4e204c41544e454d555254534e49204b454552473b4531324431,
0x3b3b3b3b3b4e3b3b3b3b3b4e4f3b303b6f533b342d4c4f424d5953204e4f495441544f4e204c41544e454d555254534e49204b454552473b4631324431,
0x3b3b3b3b3b4e3b3b3b3b3b4e4f3b303b6f533b352d4c4f424d5953204e4f495441544f4e204c41544e454d555254534e49204b454552473b3032324431,
0x3b3b3b3b3b4e3b3b3b3b3b4e4f3b303b6f533b372d4c4f424d5953204e4f495441544f4e204c41544e454d555254534e49204b454552473b3132324431,
0x3b3b3b3b3b4e3b3b3b3b3b4e4f3b303b6f533b382d4c4f424d5953204e4f495441544f4e204c41544e454d555254534e49204b454552473b3232324431,
0x3b3b3b3b3b4e3b3b3b3b3b4e4f3b303b6f533b31312d4c4f424d5953204e4f495441544f4e204c41544e454d555254534e49204b454552473b3332324431,
0x3b3b3b3b3b4e3b3b3b3b3b4e4f3b303b6f533b32312d4c4f424d5953204e4f495441544f4e204c41544e454d555254534e49204b454552473b3432324431,
0x3b3b3b3b3b4e3b3b3b3b3b4e4f3b303b6f533b33312d4c4f424d5953204e4f495441544f4e204c41544e454d555254534e49204b454552473b3532324431,
0x3b3b3b3b3b4e3b3b3b3b3b4e4f3b303b6f533b34312d4c4f424d5953204e4f495441544f4e204c41544e454d555254534e49204b454552473b3632324431,
0x3b3b3b3b3b4e3b3b3b3b3b4e4f3b303b6f533b37312d4c4f424d5953204e4f495441544f4e204c41544e454d555254534e49204b454552473b3732324431,
0x3b3b3b3b3b4e3b3b3b3b3b4e4f3b303b6f533b38312d4c4f424d5953204e4f495441544f4e204c41544e454d555254534e49204b454552473b3832324431,
0x3b3b3b3b3b4e3b3b3b3b3b4e4f3b303b6f533b39312d4c4f424d5953204e4f495441544f4e204c41544e454d555254534e49204b454552473b3932324431,
0x3b3b3b3b3b4e3b3b3b3b3b4e4f3b303b6f533b33322d4c4f424d5953204e4f495441544f4e204c41544e454d555254534e49204b454552473b4132324431,
0x3b3b3b3b3b4e3b3b3b3b3b4e4f3b303b6f533b34322d4c4f424d5953204e4f495441544f4e204c41544e454d555254534e49204b454552473b4232324431,
0x3b3b3b3b3b4e3b3b3b3b3b4e4f3b303b6f533b35322d4c4f424d5953204e4f495441544f4e204c41544e454d555254534e49204b454552473b4332324431,
0x3b3b3b3b3b4e3b3b3b3b3b4e4f3b303b6f533b36322d4c4f424d5953204e4f495441544f4e204c41544e454d555254534e49204b454552473b4432324431,
0x3b3b3b3b3b4e3b3b3b3b3b4e4f3b303b6f533b37322d4c4f424d5953204e4f495441544f4e204c41544e454d555254534e49204b454552473b4532324431,
0x3b3b3b3b3b4e3b3b3b3b3b4e4f3b303b6f533b39322d4c4f424d5953204e4f495441544f4e204c41544e454d555254534e49204b454552473b4632324431,
0x3b3b3b3b3b4e3b3b3b3b3b4e4f3b303b6f533b30332d4c4f424d5953204e4f495441544f4e204c41544e454d555254534e49204b454552473b3033324431,
0x3b3b3b3b3b4e3b3b3b3b3b4e4f3b303b6f533b32332d4c4f424d5953204e4f495441544f4e204c41544e454d555254534e49204b454552473b3133324431,
0x3b3b3b3b3b4e3b3b3b3b3b4e4f3b303b6f533b36332d4c4f424d5953204e4f495441544f4e204c41544e454d555254534e49204b454552473b3233324431,
0x3b3b3b3b3b4e3b3b3b3b3b4e4f3b303b6f533b37332d4c4f424d5953204e4f495441544f4e204c41544e454d555254534e49204b454552473b3333324431,
0x3b3b3b3b3b4e3b3b3b3b3b4e4f3b303b6f533b38332d4c4f424d5953204e4f495441544f4e204c41544e454d555254534e49204b454552473b3433324431,
0x3b3b3b3b3b4e3b3b3b3b3b4e4f3b303b6f533b39332d4c4f424d5953204e4f495441544f4e204c41544e454d555254534e49204b454552473b3533324431,
0x3b3b3b3b3b4e3b3b3b3b3b4e4f3b303b6f533b30342d4c4f424d5953204e4f495441544f4e204c41544e454d555254534e49204b454552473b3633324431,
0x3b3b3b3b3b4e3b3b3b3b3b4e4f3b303b6f533b32342d4c4f424d5953204e4f495441544f4e204c41544e454d555254534e49204b454552473b3733324431,
0x3b3b3b3b3b4e3b3b3b3b3b4e4f3b303b6f533b33342d4c4f424d5953204e4f495441544f4e204c41544e454d555254534e49204b454552473b3833324431,
0x3b3b3b3b3b4e3b3b3b3b3b4e4f3b303b6f533b35342d4c4f424d5953204e4f495441544f4e204c41544e454d555254534e49204b454552473b3933324431,
0x3b3b3b3b3b4e3b3b3b3b3b4e4f3b303b6f533b37342d4c4f424d5953204e4f495441544f4e204c41544e454d555254534e49204b454552473b4133324431,
0x3b3b3b3b3b4e3b3b3b3b3b4e4f3b303b6f533b38342d4c4f424d5953204e4f495441544f4e204c41544e454d555254534e49204b454552473b4233324431,
0x3b3b3b3b3b4e3b3b3b3b3b4e4f3b303b6f533b39342d4c4f424d5953204e4f495441544f4e204c41544e454d555254534e49204b454552473b4333324431,
0x3b3b3b3b3b4e3b3b3b3b3b4e4f3b303b6f533b30352d4c4f424d5953204e4f495441544f4e204c41544e454d555254534e49204b454552473b4433324431,
0x3b3b3b3b3b4e3b3b3b3b3b4e4f3b303b6f533b31352d4c4f424d5953204e4f495441544f4e204c41544e454d555254534e49204b454552473b4533324431,
0x3b3b3b3b3b4e3b3b3b3b3b4e4f3b303b6f533b32352d4c4f424d5953204e4f495441544f4e204c41544e454d555254534e49204b454552473b4633324431,
0x3b3b3b3b3b4e3b3b3b3b3b4e4f3b303b6f533b33352d4c4f424d5953204e4f495441544f4e204c41544e454d555254534e49204b454552473b3034324431,
0x3b3b3b3b3b4e3b3b3b3b3b4e4f3b303b6f533b34352d4c4f424d5953204e4f495441544f4e204c41544e454d555254534e49204b454552473b3134324431,
0x3b3b3b3b3b4e3b3b3b3b3b4d534e3b3033323b6e4d3b454d4553495254204c41434953554d204b4545524720474e494e49424d4f433b3234324431,
0x3b3b3b3b3b4e3b3b3b3b3b4d534e3b3033323b6e4d3b454d45534152544554204c41434953554d204b4545524720474e494e49424d4f433b3334324431,
0x3b3b3b3b3b4e3b3b3b3b3b4d534e3b3033323b6e4d3b454d455341544e4550204c41434953554d204b4545524720474e494e49424d4f433b3434324431,
0x3b3b3b3b3b4e3b3b3b3b3b4e4f3b303b6f533b414d4d49454c204c41434953554d204b454552473b3534324431,
0x3b3b3b3b3b4e3b3b3b3b3b4e4f3b303b6f533b485452414520524f46204d4152474f4e4f4d3b3030334431,
0x3b3b3b3b3b4e3b3b3b3b3b4e4f3b303b6f533b485452414520594c4e455641454820524f46204d41524749443b3130334431,
0x3b3b3b3b3b4e3b3b3b3b3b4e4f3b303b6f533b4854524145204e414d554820524f46204d41524749443b3230334431,
0x3b3b3b3b3b4e3b3b3b3b3b4e4f3b303b6f533b4e455641454820594c485452414520524f46204d41524749443b3330334431,
0x3b3b3b3b3b4e3b3b3b3b3b4e4f3b303b6f533b4e414d554820594c485452414520524f46204d41524749443b3430334431,
0x3b3b3b3b3b4e3b3b3b3b3b4e4f3b303b6f533b485452414520524f46204d41524749443b3530334431,
0x3b3b3b3b3b4e3b3b3b3b3b4e4f3b303b6f533b4552544e454320524f46204d41524741525445543b3630334431,
0x3b3b3b3b3b4e3b3b3b3b3b4e4f3b303b6f533b454c43524943204c4c554620524f46204d41524741525445543b3730334431,
0x3b3b3b3b3b4e3b3b3b3b3b4e4f3b303b6f533b444552494d20524f46204d41524741525445543b3830334431,
0x3b3b3b3b3b4e3b3b3b3b3b4e4f3b303b6f533b5245495252414220524f46204d41524741525445543b3930334431,
0x3b3b3b3b3b4e3b3b3b3b3b4e4f3b303b6f533b4c4c414d5320474e495045454b20524f46204d41524741525445543b4130334431,
0x3b3b3b3b3b4e3b3b3b3b3b4e4f3b303b6f533b59544549524152544e4f4320524f46204d41524741525445543b4230334431,
0x3b3b3b3b3b4e3b3b3b3b3b4e4f3b303b6f533b544e4543534120524f46204d41524741525445543b4330334431,
0x3b3b3b3b3b4e3b3b3b3b3b4e4f3b303b6f533b4e4f495449534f50504f20524f46204d41524741525445543b4430334431,
0x3b3b3b3b3b4e3b3b3b3b3b4e4f3b303b6f533b54554f20474e4948434e41524220524f46204d41524741525445543b4530334431,
0x3b3b3b3b3b4e3b3b3b3b3b4e4f3b303b6f533b4e4f4954524f5453494420524f205353454e45564954434546454420524f46204d41524741525445543b4630334431,
0x3b3b3b3b3b4e3b3b3b3b3b4e4f3b303b6f533b45434e4547524556494420524f46204d41524741525445543b3031334431,
0x3b3b3b3b3b4e3b3b3b3b3b4e4f3b303b6f533b5353454e4c55464854554f5920524f46204d41524741525445543b3131334431,
0x3b3b3b3b3b4e3b3b3b3b3b4e4f3b303b6f533b4553414552434e4920524f46204d41524741525445543b3231334431,
0x3b3b3b3b3b4e3b3b3b3b3b4e4f3b303b6f533b4e4f4954415254454e455020524f46204d41524741525445543b3331334431,
0x3b3b3b3b3b4e3b3b3b3b3b4e4f3b303b6f533b484341455220524f46204d41524741525445543b3431334431,
0x3b3b3b3b3b4e3b3b3b3b3b4e4f3b303b6f533b544341544e4f4320524f46204d41524741525445543b3531334431,
0x3b3b3b3b3b4e3b3b3b3b3b4e4f3b303b6f533b4b43414220474e49444c4f4820524f46204d41524741525445543b3631334431,
0x3b3b3b3b3b4e3b3b3b3b3b4e4f3b303b6f533b474e495449415720524f46204d41524741525445543b3731334431,
0x3b3b3b3b3b4e3b3b3b3b3b4e4f3b303b6f533b474e49574f4c4c4f4620524f46204d41524741525445543b3831334431,
0x3b3b3b3b3b4e3b3b3b3b3b4e4f3b303b6f533b45434e4156444120524f46204d41524741525445543b3931334431,
0x3b3b3b3b3b4e3b3b3b3b3b4e4f3b303b6f533b455341454c455220524f46204d41524741525445543b4131334431,
0x3b3b3b3b3b4e3b3b3b3b3b4e4f3b303b6f533b45434e4154534953455220524f46204d41524741525445543b4231334431,
0x3b3b3b3b3b4e3b3b3b3b3b4e4f3b303b6f533b4553414520524f46204d41524741525445543b4331334431,
0x3b3b3b3b3b4e3b3b3b3b3b4e4f3b303b6f533b594f4a20524f46204d41524741525445543b4431334431,
0x3b3b3b3b3b4e3b3b3b3b3b4e4f3b303b6f533b4e4f49544e45544e4f4320524f46204d41524741525445543b4531334431,
0x3b3b3b3b3b4e3b3b3b3b3b4e4f3b303b6f533b52554f564145444e4520524f46204d41524741525445543b4631334431,
0x3b3b3b3b3b4e3b3b3b3b3b4e4f3b303b6f533b53454954554420524f46204d41524741525445543b3032334431,
0x3b3b3b3b3b4e3b3b3b3b3b4e4f3b303b6f533b45474e41484320524f46204d41524741525445543b3132334431,
0x3b3b3b3b3b4e3b3b3b3b3b4e4f3b303b6f533b5353454e455649534943454420524f46204d41524741525445543b3232334431,
0x3b3b3b3b3b4e3b3b3b3b3b4e4f3b303b6f533b4e4f4954554c4f53455220444c4f4220524f46204d41524741525445543b3332334431,
0x3b3b3b3b3b4e3b3b3b3b3b4e4f3b303b6f533b474e494b43415020524f46204d41524741525445543b3432334431,
0x3b3b3b3b3b4e3b3b3b3b3b4e4f3b303b6f533b4e4f4947454c20524f46204d41524741525445543b3532334431,
0x3b3b3b3b3b4e3b3b3b3b3b4e4f3b303b6f533b5353454e45534f4c4320524f46204d41524741525445543b3632334431,
0x3b3b3b3b3b4e3b3b3b3b3b4e4f3b303b6f533b504948534e494b20524f46204d41524741525445543b3732334431,
0x3b3b3b3b3b4e3b3b3b3b3b4e4f3b303b6f533b474e4952454854414720524f46204d41524741525445543b3832334431,
0x3b3b3b3b3b4e3b3b3b3b3b4e4f3b303b6f533b4854474e4552545320524f46204d41524741525445543b3932334431,
0x3b3b3b3b3b4e3b3b3b3b3b4e4f3b303b6f533b59544952555020524f46204d41524741525445543b4132334431,
0x3b3b3b3b3b4e3b3b3b3b3b4e4f3b303b6f533b5353454e4c4c554620524f46204d41524741525445543b4232334431,
0x3b3b3b3b3b4e3b3b3b3b3b4e4f3b303b6f533b45434e45444953455220524f46204d41524741525445543b4332334431,
0x3b3b3b3b3b4e3b3b3b3b3b4e4f3b303b6f533b4c45444f4d20524f2057414c20524f46204d41524741525445543b4432334431,
0x3b3b3b3b3b4e3b3b3b3b3b4e4f3b303b6f533b45534e4f5053455220524f46204d41524741525445543b4532334431,
0x3b3b3b3b3b4e3b3b3b3b3b4e4f3b303b6f533b5445454d204f5420474e494f4720524f46204d41524741525445543b4632334431,
0x3b3b3b3b3b4e3b3b3b3b3b4e4f3b303b6f533b535245544e554f434e4520524f46204d41524741525445543b3033334431,
0x3b3b3b3b3b4e3b3b3b3b3b4e4f3b303b6f533b45564f545320524f46204d41524741525445543b3133334431,
0x3b3b3b3b3b4e3b3b3b3b3b4e4f3b303b6f533b5353454e544145524720524f46204d41524741525445543b3233334431,
0x3b3b3b3b3b4e3b3b3b3b3b4e4f3b303b6f533b544e454d454752414c4e4520524f46204d41524741525445543b3333334431,
0x3b3b3b3b3b4e3b3b3b3b3b4e4f3b303b6f533b4e52455454415020524f46204d41524741525445543b3433334431,
0x3b3b3b3b3b4e3b3b3b3b3b4e4f3b303b6f533b4c415554495220524f46204d41524741525445543b3533334431,
0x3b3b3b3b3b4e3b3b3b3b3b4e4f3b303b6f533b544847494c4620524f46204d41524741525445543b3633334431,
0x3b3b3b3b3b4e3b3b3b3b3b4e4f3b303b6f533b474e495453415720524f205353454e5453415620524f46204d41524741525445543b3733334431,
0x3b3b3b3b3b4e3b3b3b3b3b4e4f3b303b6f533b59434e4154534e4f4320524f46204d41524741525445543b3833334431,
0x3b3b3b3b3b4e3b3b3b3b3b4e4f3b303b6f533b4552555341454d20524f46204d41524741525445543b3933334431]

/-- src/u5e/props/UnicodeData.txt lines 25601-25856. -/
def rawUcd100 : List Nat := [
0x3b3b3b3b3b4e3b3b3b3b3b4e4f3b303b6f533b5954494e5245544520524f46204d41524741525445543b4133334431,
0x3b3b3b3b3b4e3b3b3b3b3b4e4f3b303b6f533b5954494e5520524f46204d41524741525445543b4233334431,
0x3b3b3b3b3b4e3b3b3b3b3b4e4f3b303b6f533b544e454d4853494e494d494420524f46204d41524741525445543b4333334431,
0x3b3b3b3b3b4e3b3b3b3b3b4e4f3b303b6f533b4854554f4d204445534f4c4320524f46204d41524741525445543b4433334431,
0x3b3b3b3b3b4e3b3b3b3b3b4e4f3b303b6f533b5353454e4445445241554720524f46204d41524741525445543b4533334431,
0x3b3b3b3b3b4e3b3b3b3b3b4e4f3b303b6f533b4e4920474e4952454854414720524f46204d41524741525445543b4633334431,
0x3b3b3b3b3b4e3b3b3b3b3b4e4f3b303b6f533b474e495353414d20524f46204d41524741525445543b3034334431,
0x3b3b3b3b3b4e3b3b3b3b3b4e4f3b303b6f533b4e4f4954414c554d5543434120524f46204d41524741525445543b3134334431,
0x3b3b3b3b3b4e3b3b3b3b3b4e4f3b303b6f533b544e454d4853494c4c45424d4520524f46204d41524741525445543b3234334431,
0x3b3b3b3b3b4e3b3b3b3b3b4e4f3b303b6f533b5442554f4420524f46204d41524741525445543b3334334431,
0x3b3b3b3b3b4e3b3b3b3b3b4e4f3b303b6f533b484354415720524f46204d41524741525445543b3434334431,
0x3b3b3b3b3b4e3b3b3b3b3b4e4f3b303b6f533b474e494b4e495320524f46204d41524741525445543b3534334431,
0x3b3b3b3b3b4e3b3b3b3b3b4e4f3b303b6f533b52454e4e4920524f46204d41524741525445543b3634334431,
0x3b3b3b3b3b4e3b3b3b3b3b4e4f3b303b6f533b45525554524150454420524f46204d41524741525445543b3734334431,
0x3b3b3b3b3b4e3b3b3b3b3b4e4f3b303b6f533b474e494e454b52414420524f46204d41524741525445543b3834334431,
0x3b3b3b3b3b4e3b3b3b3b3b4e4f3b303b6f533b474e494d4d494420524f46204d41524741525445543b3934334431,
0x3b3b3b3b3b4e3b3b3b3b3b4e4f3b303b6f533b4e4f495453554148584520524f46204d41524741525445543b4134334431,
0x3b3b3b3b3b4e3b3b3b3b3b4e4f3b303b6f533b45434e41524556455320524f46204d41524741525445543b4234334431,
0x3b3b3b3b3b4e3b3b3b3b3b4e4f3b303b6f533b45474150504f545320524f46204d41524741525445543b4334334431,
0x3b3b3b3b3b4e3b3b3b3b3b4e4f3b303b6f533b5353454e4452414820524f46204d41524741525445543b4434334431,
0x3b3b3b3b3b4e3b3b3b3b3b4e4f3b303b6f533b4e4f4954454c504d4f4320524f46204d41524741525445543b4534334431,
0x3b3b3b3b3b4e3b3b3b3b3b4e4f3b303b6f533b455255534f4c4320524f46204d41524741525445543b4634334431,
0x3b3b3b3b3b4e3b3b3b3b3b4e4f3b303b6f533b4552554c49414620524f46204d41524741525445543b3035334431,
0x3b3b3b3b3b4e3b3b3b3b3b4e4f3b303b6f533b4e4f49544156415247474120524f46204d41524741525445543b3135334431,
0x3b3b3b3b3b4e3b3b3b3b3b4e4f3b303b6f533b45434e41494c504d4f4320524f46204d41524741525445543b3235334431,
0x3b3b3b3b3b4e3b3b3b3b3b4e4f3b303b6f533b454752455620454854204e4f20524f46204d41524741525445543b3335334431,
0x3b3b3b3b3b4e3b3b3b3b3b4e4f3b303b6f533b534549544c5543494646494420524f46204d41524741525445543b3435334431,
0x3b3b3b3b3b4e3b3b3b3b3b4e4f3b303b6f533b474e4952554f42414c20524f46204d41524741525445543b3535334431,
0x3b3b3b3b3b4e3b3b3b3b3b4e4f3b303b6f533b474e49524554534f4620524f46204d41524741525445543b3635334431,
0x3b3b3b3b3b4e3b313b3b3b3b4c3b303b6f4e3b454e4f2054494749442054494e5520444f5220474e49544e554f433b3036334431,
0x3b3b3b3b3b4e3b323b3b3b3b4c3b303b6f4e3b4f57542054494749442054494e5520444f5220474e49544e554f433b3136334431,
0x3b3b3b3b3b4e3b333b3b3b3b4c3b303b6f4e3b45455248542054494749442054494e5520444f5220474e49544e554f433b3236334431,
0x3b3b3b3b3b4e3b343b3b3b3b4c3b303b6f4e3b52554f462054494749442054494e5520444f5220474e49544e554f433b3336334431,
0x3b3b3b3b3b4e3b353b3b3b3b4c3b303b6f4e3b455649462054494749442054494e5520444f5220474e49544e554f433b3436334431,
0x3b3b3b3b3b4e3b363b3b3b3b4c3b303b6f4e3b5849532054494749442054494e5520444f5220474e49544e554f433b3536334431,
0x3b3b3b3b3b4e3b373b3b3b3b4c3b303b6f4e3b4e455645532054494749442054494e5520444f5220474e49544e554f433b3636334431,
0x3b3b3b3b3b4e3b383b3b3b3b4c3b303b6f4e3b54484749452054494749442054494e5520444f5220474e49544e554f433b3736334431,
0x3b3b3b3b3b4e3b393b3b3b3b4c3b303b6f4e3b454e494e2054494749442054494e5520444f5220474e49544e554f433b3836334431,
0x3b3b3b3b3b4e3b30313b3b3b3b4c3b303b6f4e3b454e4f20544947494420534e455420444f5220474e49544e554f433b3936334431,
0x3b3b3b3b3b4e3b30323b3b3b3b4c3b303b6f4e3b4f575420544947494420534e455420444f5220474e49544e554f433b4136334431,
0x3b3b3b3b3b4e3b30333b3b3b3b4c3b303b6f4e3b454552485420544947494420534e455420444f5220474e49544e554f433b4236334431,
0x3b3b3b3b3b4e3b30343b3b3b3b4c3b303b6f4e3b52554f4620544947494420534e455420444f5220474e49544e554f433b4336334431,
0x3b3b3b3b3b4e3b30353b3b3b3b4c3b303b6f4e3b4556494620544947494420534e455420444f5220474e49544e554f433b4436334431,
0x3b3b3b3b3b4e3b30363b3b3b3b4c3b303b6f4e3b58495320544947494420534e455420444f5220474e49544e554f433b4536334431,
0x3b3b3b3b3b4e3b30373b3b3b3b4c3b303b6f4e3b4e4556455320544947494420534e455420444f5220474e49544e554f433b4636334431,
0x3b3b3b3b3b4e3b30383b3b3b3b4c3b303b6f4e3b544847494520544947494420534e455420444f5220474e49544e554f433b3037334431,
0x3b3b3b3b3b4e3b30393b3b3b3b4c3b303b6f4e3b454e494e20544947494420534e455420444f5220474e49544e554f433b3137334431,
0x3b3b3b3b3b4e3b3b3b3b31343030203e746e6f663c3b4c3b303b754c3b41204c41544950414320444c4f42204c41434954414d454854414d3b3030344431,
0x3b3b3b3b3b4e3b3b3b3b32343030203e746e6f663c3b4c3b303b754c3b42204c41544950414320444c4f42204c41434954414d454854414d3b3130344431,
0x3b3b3b3b3b4e3b3b3b3b33343030203e746e6f663c3b4c3b303b754c3b43204c41544950414320444c4f42204c41434954414d454854414d3b3230344431,
0x3b3b3b3b3b4e3b3b3b3b34343030203e746e6f663c3b4c3b303b754c3b44204c41544950414320444c4f42204c41434954414d454854414d3b3330344431,
0x3b3b3b3b3b4e3b3b3b3b35343030203e746e6f663c3b4c3b303b754c3b45204c41544950414320444c4f42204c41434954414d454854414d3b3430344431,
0x3b3b3b3b3b4e3b3b3b3b36343030203e746e6f663c3b4c3b303b754c3b46204c41544950414320444c4f42204c41434954414d454854414d3b3530344431,
0x3b3b3b3b3b4e3b3b3b3b37343030203e746e6f663c3b4c3b303b754c3b47204c41544950414320444c4f42204c41434954414d454854414d3b3630344431,
0x3b3b3b3b3b4e3b3b3b3b38343030203e746e6f663c3b4c3b303b754c3b48204c41544950414320444c4f42204c41434954414d454854414d3b3730344431,
0x3b3b3b3b3b4e3b3b3b3b39343030203e746e6f663c3b4c3b303b754c3b49204c41544950414320444c4f42204c41434954414d454854414d3b3830344431,
0x3b3b3b3b3b4e3b3b3b3b41343030203e746e6f663c3b4c3b303b754c3b4a204c41544950414320444c4f42204c41434954414d454854414d3b3930344431,
0x3b3b3b3b3b4e3b3b3b3b42343030203e746e6f663c3b4c3b303b754c3b4b204c41544950414320444c4f42204c41434954414d454854414d3b4130344431,
0x3b3b3b3b3b4e3b3b3b3b43343030203e746e6f663c3b4c3b303b754c3b4c204c41544950414320444c4f42204c41434954414d454854414d3b4230344431,
0x3b3b3b3b3b4e3b3b3b3b44343030203e746e6f663c3b4c3b303b754c3b4d204c41544950414320444c4f42204c41434954414d454854414d3b4330344431,
0x3b3b3b3b3b4e3b3b3b3b45343030203e746e6f663c3b4c3b303b754c3b4e204c41544950414320444c4f42204c41434954414d454854414d3b4430344431,
0x3b3b3b3b3b4e3b3b3b3b46343030203e746e6f663c3b4c3b303b754c3b4f204c41544950414320444c4f42204c41434954414d454854414d3b4530344431,
0x3b3b3b3b3b4e3b3b3b3b30353030203e746e6f663c3b4c3b303b754c3b50204c41544950414320444c4f42204c41434954414d454854414d3b4630344431,
0x3b3b3b3b3b4e3b3b3b3b31353030203e746e6f663c3b4c3b303b754c3b51204c41544950414320444c4f42204c41434954414d454854414d3b3031344431,
0x3b3b3b3b3b4e3b3b3b3b32353030203e746e6f663c3b4c3b303b754c3b52204c41544950414320444c4f42204c41434954414d454854414d3b3131344431,
0x3b3b3b3b3b4e3b3b3b3b33353030203e746e6f663c3b4c3b303b754c3b53204c41544950414320444c4f42204c41434954414d454854414d3b3231344431,
0x3b3b3b3b3b4e3b3b3b3b34353030203e746e6f663c3b4c3b303b754c3b54204c41544950414320444c4f42204c41434954414d454854414d3b3331344431,
0x3b3b3b3b3b4e3b3b3b3b35353030203e746e6f663c3b4c3b303b754c3b55204c41544950414320444c4f42204c41434954414d454854414d3b3431344431,
0x3b3b3b3b3b4e3b3b3b3b36353030203e746e6f663c3b4c3b303b754c3b56204c41544950414320444c4f42204c41434954414d454854414d3b3531344431,
0x3b3b3b3b3b4e3b3b3b3b37353030203e746e6f663c3b4c3b303b754c3b57204c41544950414320444c4f42204c41434954414d454854414d3b3631344431,
0x3b3b3b3b3b4e3b3b3b3b38353030203e746e6f663c3b4c3b303b754c3b58204c41544950414320444c4f42204c41434954414d454854414d3b3731344431,
0x3b3b3b3b3b4e3b3b3b3b39353030203e746e6f663c3b4c3b303b754c3b59204c41544950414320444c4f42204c41434954414d454854414d3b3831344431,
0x3b3b3b3b3b4e3b3b3b3b41353030203e746e6f663c3b4c3b303b754c3b5a204c41544950414320444c4f42204c41434954414d454854414d3b3931344431,
0x3b3b3b3b3b4e3b3b3b3b31363030203e746e6f663c3b4c3b303b6c4c3b41204c4c414d5320444c4f42204c41434954414d454854414d3b4131344431,
0x3b3b3b3b3b4e3b3b3b3b32363030203e746e6f663c3b4c3b303b6c4c3b42204c4c414d5320444c4f42204c41434954414d454854414d3b4231344431,
0x3b3b3b3b3b4e3b3b3b3b33363030203e746e6f663c3b4c3b303b6c4c3b43204c4c414d5320444c4f42204c41434954414d454854414d3b4331344431,
0x3b3b3b3b3b4e3b3b3b3b34363030203e746e6f663c3b4c3b303b6c4c3b44204c4c414d5320444c4f42204c41434954414d454854414d3b4431344431,
0x3b3b3b3b3b4e3b3b3b3b35363030203e746e6f663c3b4c3b303b6c4c3b45204c4c414d5320444c4f42204c41434954414d454854414d3b4531344431,
0x3b3b3b3b3b4e3b3b3b3b36363030203e746e6f663c3b4c3b303b6c4c3b46204c4c414d5320444c4f42204c41434954414d454854414d3b4631344431,
0x3b3b3b3b3b4e3b3b3b3b37363030203e746e6f663c3b4c3b303b6c4c3b47204c4c414d5320444c4f42204c41434954414d454854414d3b3032344431,
0x3b3b3b3b3b4e3b3b3b3b38363030203e746e6f663c3b4c3b303b6c4c3b48204c4c414d5320444c4f42204c41434954414d454854414d3b3132344431,
0x3b3b3b3b3b4e3b3b3b3b39363030203e746e6f663c3b4c3b303b6c4c3b49204c4c414d5320444c4f42204c41434954414d454854414d3b3232344431,
0x3b3b3b3b3b4e3b3b3b3b41363030203e746e6f663c3b4c3b303b6c4c3b4a204c4c414d5320444c4f42204c41434954414d454854414d3b3332344431,
0x3b3b3b3b3b4e3b3b3b3b42363030203e746e6f663c3b4c3b303b6c4c3b4b204c4c414d5320444c4f42204c41434954414d454854414d3b3432344431,
0x3b3b3b3b3b4e3b3b3b3b43363030203e746e6f663c3b4c3b303b6c4c3b4c204c4c414d5320444c4f42204c41434954414d454854414d3b3532344431,
0x3b3b3b3b3b4e3b3b3b3b44363030203e746e6f663c3b4c3b303b6c4c3b4d204c4c414d5320444c4f42204c41434954414d454854414d3b3632344431,
0x3b3b3b3b3b4e3b3b3b3b45363030203e746e6f663c3b4c3b303b6c4c3b4e204c4c414d5320444c4f42204c41434954414d454854414d3b3732344431,
0x3b3b3b3b3b4e3b3b3b3b46363030203e746e6f663c3b4c3b303b6c4c3b4f204c4c414d5320444c4f42204c41434954414d454854414d3b3832344431,
0x3b3b3b3b3b4e3b3b3b3b30373030203e746e6f663c3b4c3b303b6c4c3b50204c4c414d5320444c4f42204c41434954414d454854414d3b3932344431,
0x3b3b3b3b3b4e3b3b3b3b31373030203e746e6f663c3b4c3b303b6c4c3b51204c4c414d5320444c4f42204c41434954414d454854414d3b4132344431,
0x3b3b3b3b3b4e3b3b3b3b32373030203e746e6f663c3b4c3b303b6c4c3b52204c4c414d5320444c4f42204c41434954414d454854414d3b4232344431,
0x3b3b3b3b3b4e3b3b3b3b33373030203e746e6f663c3b4c3b303b6c4c3b53204c4c414d5320444c4f42204c41434954414d454854414d3b4332344431,
0x3b3b3b3b3b4e3b3b3b3b34373030203e746e6f663c3b4c3b303b6c4c3b54204c4c414d5320444c4f42204c41434954414d454854414d3b4432344431,
0x3b3b3b3b3b4e3b3b3b3b35373030203e746e6f663c3b4c3b303b6c4c3b55204c4c414d5320444c4f42204c41434954414d454854414d3b4532344431,
0x3b3b3b3b3b4e3b3b3b3b36373030203e746e6f663c3b4c3b303b6c4c3b56204c4c414d5320444c4f42204c41434954414d454854414d3b4632344431,
0x3b3b3b3b3b4e3b3b3b3b37373030203e746e6f663c3b4c3b303b6c4c3b57204c4c414d5320444c4f42204c41434954414d454854414d3b3033344431,
0x3b3b3b3b3b4e3b3b3b3b38373030203e746e6f663c3b4c3b303b6c4c3b58204c4c414d5320444c4f42204c41434954414d454854414d3b3133344431,
0x3b3b3b3b3b4e3b3b3b3b39373030203e746e6f663c3b4c3b303b6c4c3b59204c4c414d5320444c4f42204c41434954414d454854414d3b3233344431,
0x3b3b3b3b3b4e3b3b3b3b41373030203e746e6f663c3b4c3b303b6c4c3b5a204c4c414d5320444c4f42204c41434954414d454854414d3b3333344431,
0x3b3b3b3b3b4e3b3b3b3b31343030203e746e6f663c3b4c3b303b754c3b41204c4154495041432043494c415449204c41434954414d454854414d3b3433344431,
0x3b3b3b3b3b4e3b3b3b3b32343030203e746e6f663c3b4c3b303b754c3b42204c4154495041432043494c415449204c41434954414d454854414d3b3533344431,
0x3b3b3b3b3b4e3b3b3b3b33343030203e746e6f663c3b4c3b303b754c3b43204c4154495041432043494c415449204c41434954414d454854414d3b3633344431,
0x3b3b3b3b3b4e3b3b3b3b34343030203e746e6f663c3b4c3b303b754c3b44204c4154495041432043494c415449204c41434954414d454854414d3b3733344431,
0x3b3b3b3b3b4e3b3b3b3b35343030203e746e6f663c3b4c3b303b754c3b45204c4154495041432043494c415449204c41434954414d454854414d3b3833344431,
0x3b3b3b3b3b4e3b3b3b3b36343030203e746e6f663c3b4c3b303b754c3b46204c4154495041432043494c415449204c41434954414d454854414d3b3933344431,
0x3b3b3b3b3b4e3b3b3b3b37343030203e746e6f663c3b4c3b303b754c3b47204c4154495041432043494c415449204c41434954414d454854414d3b4133344431,
0x3b3b3b3b3b4e3b3b3b3b38343030203e746e6f663c3b4c3b303b754c3b48204c4154495041432043494c415449204c41434954414d454854414d3b4233344431,
0x3b3b3b3b3b4e3b3b3b3b39343030203e746e6f663c3b4c3b303b754c3b49204c4154495041432043494c415449204c41434954414d454854414d3b4333344431,
0x3b3b3b3b3b4e3b3b3b3b41343030203e746e6f663c3b4c3b303b754c3b4a204c4154495041432043494c415449204c41434954414d454854414d3b4433344431,
0x3b3b3b3b3b4e3b3b3b3b42343030203e746e6f663c3b4c3b303b754c3b4b204c4154495041432043494c415449204c41434954414d454854414d3b4533344431,
0x3b3b3b3b3b4e3b3b3b3b43343030203e746e6f663c3b4c3b303b754c3b4c204c4154495041432043494c415449204c41434954414d454854414d3b4633344431,
0x3b3b3b3b3b4e3b3b3b3b44343030203e746e6f663c3b4c3b303b754c3b4d204c4154495041432043494c415449204c41434954414d454854414d3b3034344431,
0x3b3b3b3b3b4e3b3b3b3b45343030203e746e6f663c3b4c3b303b754c3b4e204c4154495041432043494c415449204c41434954414d454854414d3b3134344431,
0x3b3b3b3b3b4e3b3b3b3b46343030203e746e6f663c3b4c3b303b754c3b4f204c4154495041432043494c415449204c41434954414d454854414d3b3234344431,
0x3b3b3b3b3b4e3b3b3b3b30353030203e746e6f663c3b4c3b303b754c3b50204c4154495041432043494c415449204c41434954414d454854414d3b3334344431,
0x3b3b3b3b3b4e3b3b3b3b31353030203e746e6f663c3b4c3b303b754c3b51204c4154495041432043494c415449204c41434954414d454854414d3b3434344431,
0x3b3b3b3b3b4e3b3b3b3b32353030203e746e6f663c3b4c3b303b754c3b52204c4154495041432043494c415449204c41434954414d454854414d3b3534344431,
0x3b3b3b3b3b4e3b3b3b3b33353030203e746e6f663c3b4c3b303b754c3b53204c4154495041432043494c415449204c41434954414d454854414d3b3634344431,
0x3b3b3b3b3b4e3b3b3b3b34353030203e746e6f663c3b4c3b303b754c3b54204c4154495041432043494c415449204c41434954414d454854414d3b3734344431,
0x3b3b3b3b3b4e3b3b3b3b35353030203e746e6f663c3b4c3b303b754c3b55204c4154495041432043494c415449204c41434954414d454854414d3b3834344431,
0x3b3b3b3b3b4e3b3b3b3b36353030203e746e6f663c3b4c3b303b754c3b56204c4154495041432043494c415449204c41434954414d454854414d3b3934344431,
0x3b3b3b3b3b4e3b3b3b3b37353030203e746e6f663c3b4c3b303b754c3b57204c4154495041432043494c415449204c41434954414d454854414d3b4134344431,
0x3b3b3b3b3b4e3b3b3b3b38353030203e746e6f663c3b4c3b303b754c3b58204c4154495041432043494c415449204c41434954414d454854414d3b4234344431,
0x3b3b3b3b3b4e3b3b3b3b39353030203e746e6f663c3b4c3b303b754c3b59204c4154495041432043494c415449204c41434954414d454854414d3b4334344431,
0x3b3b3b3b3b4e3b3b3b3b41353030203e746e6f663c3b4c3b303b754c3b5a204c4154495041432043494c415449204c41434954414d454854414d3b4434344431,
0x3b3b3b3b3b4e3b3b3b3b31363030203e746e6f663c3b4c3b303b6c4c3b41204c4c414d532043494c415449204c41434954414d454854414d3b4534344431,
0x3b3b3b3b3b4e3b3b3b3b32363030203e746e6f663c3b4c3b303b6c4c3b42204c4c414d532043494c415449204c41434954414d454854414d3b4634344431,
0x3b3b3b3b3b4e3b3b3b3b33363030203e746e6f663c3b4c3b303b6c4c3b43204c4c414d532043494c415449204c41434954414d454854414d3b3035344431,
0x3b3b3b3b3b4e3b3b3b3b34363030203e746e6f663c3b4c3b303b6c4c3b44204c4c414d532043494c415449204c41434954414d454854414d3b3135344431,
0x3b3b3b3b3b4e3b3b3b3b35363030203e746e6f663c3b4c3b303b6c4c3b45204c4c414d532043494c415449204c41434954414d454854414d3b3235344431,
0x3b3b3b3b3b4e3b3b3b3b36363030203e746e6f663c3b4c3b303b6c4c3b46204c4c414d532043494c415449204c41434954414d454854414d3b3335344431,
0x3b3b3b3b3b4e3b3b3b3b37363030203e746e6f663c3b4c3b303b6c4c3b47204c4c414d532043494c415449204c41434954414d454854414d3b3435344431,
0x3b3b3b3b3b4e3b3b3b3b39363030203e746e6f663c3b4c3b303b6c4c3b49204c4c414d532043494c415449204c41434954414d454854414d3b3635344431,
0x3b3b3b3b3b4e3b3b3b3b41363030203e746e6f663c3b4c3b303b6c4c3b4a204c4c414d532043494c415449204c41434954414d454854414d3b3735344431,
0x3b3b3b3b3b4e3b3b3b3b42363030203e746e6f663c3b4c3b303b6c4c3b4b204c4c414d532043494c415449204c41434954414d454854414d3b3835344431,
0x3b3b3b3b3b4e3b3b3b3b43363030203e746e6f663c3b4c3b303b6c4c3b4c204c4c414d532043494c415449204c41434954414d454854414d3b3935344431,
0x3b3b3b3b3b4e3b3b3b3b44363030203e746e6f663c3b4c3b303b6c4c3b4d204c4c414d532043494c415449204c41434954414d454854414d3b4135344431,
0x3b3b3b3b3b4e3b3b3b3b45363030203e746e6f663c3b4c3b303b6c4c3b4e204c4c414d532043494c415449204c41434954414d454854414d3b4235344431,
0x3b3b3b3b3b4e3b3b3b3b46363030203e746e6f663c3b4c3b303b6c4c3b4f204c4c414d532043494c415449204c41434954414d454854414d3b4335344431,
0x3b3b3b3b3b4e3b3b3b3b30373030203e746e6f663c3b4c3b303b6c4c3b50204c4c414d532043494c415449204c41434954414d454854414d3b4435344431,
0x3b3b3b3b3b4e3b3b3b3b31373030203e746e6f663c3b4c3b303b6c4c3b51204c4c414d532043494c415449204c41434954414d454854414d3b4535344431,
0x3b3b3b3b3b4e3b3b3b3b32373030203e746e6f663c3b4c3b303b6c4c3b52204c4c414d532043494c415449204c41434954414d454854414d3b4635344431,
0x3b3b3b3b3b4e3b3b3b3b33373030203e746e6f663c3b4c3b303b6c4c3b53204c4c414d532043494c415449204c41434954414d454854414d3b3036344431,
0x3b3b3b3b3b4e3b3b3b3b34373030203e746e6f663c3b4c3b303b6c4c3b54204c4c414d532043494c415449204c41434954414d454854414d3b3136344431,
0x3b3b3b3b3b4e3b3b3b3b35373030203e746e6f663c3b4c3b303b6c4c3b55204c4c414d532043494c415449204c41434954414d454854414d3b3236344431,
0x3b3b3b3b3b4e3b3b3b3b36373030203e746e6f663c3b4c3b303b6c4c3b56204c4c414d532043494c415449204c41434954414d454854414d3b3336344431,
0x3b3b3b3b3b4e3b3b3b3b37373030203e746e6f663c3b4c3b303b6c4c3b57204c4c414d532043494c415449204c41434954414d454854414d3b3436344431,
0x3b3b3b3b3b4e3b3b3b3b38373030203e746e6f663c3b4c3b303b6c4c3b58204c4c414d532043494c415449204c41434954414d454854414d3b3536344431,
0x3b3b3b3b3b4e3b3b3b3b39373030203e746e6f663c3b4c3b303b6c4c3b59204c4c414d532043494c415449204c41434954414d454854414d3b3636344431,
0x3b3b3b3b3b4e3b3b3b3b41373030203e746e6f663c3b4c3b303b6c4c3b5a204c4c414d532043494c415449204c41434954414d454854414d3b3736344431,
0x3b3b3b3b3b4e3b3b3b3b31343030203e746e6f663c3b4c3b303b754c3b41204c4154495041432043494c41544920444c4f42204c41434954414d454854414d3b3836344431,
0x3b3b3b3b3b4e3b3b3b3b32343030203e746e6f663c3b4c3b303b754c3b42204c4154495041432043494c41544920444c4f42204c41434954414d454854414d3b3936344431,
0x3b3b3b3b3b4e3b3b3b3b33343030203e746e6f663c3b4c3b303b754c3b43204c4154495041432043494c41544920444c4f42204c41434954414d454854414d3b4136344431,
0x3b3b3b3b3b4e3b3b3b3b34343030203e746e6f663c3b4c3b303b754c3b44204c4154495041432043494c41544920444c4f42204c41434954414d454854414d3b4236344431,
0x3b3b3b3b3b4e3b3b3b3b35343030203e746e6f663c3b4c3b303b754c3b45204c4154495041432043494c41544920444c4f42204c41434954414d454854414d3b4336344431,
0x3b3b3b3b3b4e3b3b3b3b36343030203e746e6f663c3b4c3b303b754c3b46204c4154495041432043494c41544920444c4f42204c41434954414d454854414d3b4436344431,
0x3b3b3b3b3b4e3b3b3b3b37343030203e746e6f663c3b4c3b303b754c3b47204c4154495041432043494c41544920444c4f42204c41434954414d454854414d3b4536344431,
0x3b3b3b3b3b4e3b3b3b3b38343030203e746e6f663c3b4c3b303b754c3b48204c4154495041432043494c41544920444c4f42204c41434954414d454854414d3b4636344431,
0x3b3b3b3b3b4e3b3b3b3b39343030203e746e6f663c3b4c3b303b754c3b49204c4154495041432043494c41544920444c4f42204c41434954414d454854414d3b3037344431,
0x3b3b3b3b3b4e3b3b3b3b41343030203e746e6f663c3b4c3b303b754c3b4a204c4154495041432043494c41544920444c4f42204c41434954414d454854414d3b3137344431,
0x3b3b3b3b3b4e3b3b3b3b42343030203e746e6f663c3b4c3b303b754c3b4b204c4154495041432043494c41544920444c4f42204c41434954414d454854414d3b3237344431,
0x3b3b3b3b3b4e3b3b3b3b43343030203e746e6f663c3b4c3b303b754c3b4c204c4154495041432043494c41544920444c4f42204c41434954414d454854414d3b3337344431,
0x3b3b3b3b3b4e3b3b3b3b44343030203e746e6f663c3b4c3b303b754c3b4d204c4154495041432043494c41544920444c4f42204c41434954414d454854414d3b3437344431,
0x3b3b3b3b3b4e3b3b3b3b45343030203e746e6f663c3b4c3b303b754c3b4e204c4154495041432043494c41544920444c4f42204c41434954414d454854414d3b3537344431,
0x3b3b3b3b3b4e3b3b3b3b46343030203e746e6f663c3b4c3b303b754c3b4f204c4154495041432043494c41544920444c4f42204c41434954414d454854414d3b3637344431,
0x3b3b3b3b3b4e3b3b3b3b30353030203e746e6f663c3b4c3b303b754c3b50204c4154495041432043494c41544920444c4f42204c41434954414d454854414d3b3737344431,
0x3b3b3b3b3b4e3b3b3b3b31353030203e746e6f663c3b4c3b303b754c3b51204c4154495041432043494c41544920444c4f42204c41434954414d454854414d3b3837344431,
0x3b3b3b3b3b4e3b3b3b3b32353030203e746e6f663c3b4c3b303b754c3b52204c4154495041432043494c41544920444c4f42204c41434954414d454854414d3b3937344431,
0x3b3b3b3b3b4e3b3b3b3b33353030203e746e6f663c3b4c3b303b754c3b53204c4154495041432043494c41544920444c4f42204c41434954414d454854414d3b4137344431,
0x3b3b3b3b3b4e3b3b3b3b34353030203e746e6f663c3b4c3b303b754c3b54204c4154495041432043494c41544920444c4f42204c41434954414d454854414d3b4237344431,
0x3b3b3b3b3b4e3b3b3b3b35353030203e746e6f663c3b4c3b303b754c3b55204c4154495041432043494c41544920444c4f42204c41434954414d454854414d3b4337344431,
0x3b3b3b3b3b4e3b3b3b3b36353030203e746e6f663c3b4c3b303b754c3b56204c4154495041432043494c41544920444c4f42204c41434954414d454854414d3b4437344431,
0x3b3b3b3b3b4e3b3b3b3b37353030203e746e6f663c3b4c3b303b754c3b57204c4154495041432043494c41544920444c4f42204c41434954414d454854414d3b4537344431,
0x3b3b3b3b3b4e3b3b3b3b38353030203e746e6f663c3b4c3b303b754c3b58204c4154495041432043494c41544920444c4f42204c41434954414d454854414d3b4637344431,
0x3b3b3b3b3b4e3b3b3b3b39353030203e746e6f663c3b4c3b303b754c3b59204c4154495041432043494c41544920444c4f42204c41434954414d454854414d3b3038344431,
0x3b3b3b3b3b4e3b3b3b3b41353030203e746e6f663c3b4c3b303b754c3b5a204c4154495041432043494c41544920444c4f42204c41434954414d454854414d3b3138344431,
0x3b3b3b3b3b4e3b3b3b3b31363030203e746e6f663c3b4c3b303b6c4c3b41204c4c414d532043494c41544920444c4f42204c41434954414d454854414d3b3238344431,
0x3b3b3b3b3b4e3b3b3b3b32363030203e746e6f663c3b4c3b303b6c4c3b42204c4c414d532043494c41544920444c4f42204c41434954414d454854414d3b3338344431,
0x3b3b3b3b3b4e3b3b3b3b33363030203e746e6f663c3b4c3b303b6c4c3b43204c4c414d532043494c41544920444c4f42204c41434954414d454854414d3b3438344431,
0x3b3b3b3b3b4e3b3b3b3b34363030203e746e6f663c3b4c3b303b6c4c3b44204c4c414d532043494c41544920444c4f42204c41434954414d454854414d3b3538344431,
0x3b3b3b3b3b4e3b3b3b3b35363030203e746e6f663c3b4c3b303b6c4c3b45204c4c414d532043494c41544920444c4f42204c41434954414d454854414d3b3638344431,
0x3b3b3b3b3b4e3b3b3b3b36363030203e746e6f663c3b4c3b303b6c4c3b46204c4c414d532043494c41544920444c4f42204c41434954414d454854414d3b3738344431,
0x3b3b3b3b3b4e3b3b3b3b37363030203e746e6f663c3b4c3b303b6c4c3b47204c4c414d532043494c41544920444c4f42204c41434954414d454854414d3b3838344431,
0x3b3b3b3b3b4e3b3b3b3b38363030203e746e6f663c3b4c3b303b6c4c3b48204c4c414d532043494c41544920444c4f42204c41434954414d454854414d3b3938344431,
0x3b3b3b3b3b4e3b3b3b3b39363030203e746e6f663c3b4c3b303b6c4c3b49204c4c414d532043494c41544920444c4f42204c41434954414d454854414d3b4138344431,
0x3b3b3b3b3b4e3b3b3b3b41363030203e746e6f663c3b4c3b303b6c4c3b4a204c4c414d532043494c41544920444c4f42204c41434954414d454854414d3b4238344431,
0x3b3b3b3b3b4e3b3b3b3b42363030203e746e6f663c3b4c3b303b6c4c3b4b204c4c414d532043494c41544920444c4f42204c41434954414d454854414d3b4338344431,
0x3b3b3b3b3b4e3b3b3b3b43363030203e746e6f663c3b4c3b303b6c4c3b4c204c4c414d532043494c41544920444c4f42204c41434954414d454854414d3b4438344431,
0x3b3b3b3b3b4e3b3b3b3b44363030203e746e6f663c3b4c3b303b6c4c3b4d204c4c414d532043494c41544920444c4f42204c41434954414d454854414d3b4538344431,
0x3b3b3b3b3b4e3b3b3b3b45363030203e746e6f663c3b4c3b303b6c4c3b4e204c4c414d532043494c41544920444c4f42204c41434954414d454854414d3b4638344431,
0x3b3b3b3b3b4e3b3b3b3b46363030203e746e6f663c3b4c3b303b6c4c3b4f204c4c414d532043494c41544920444c4f42204c41434954414d454854414d3b3039344431,
0x3b3b3b3b3b4e3b3b3b3b30373030203e746e6f663c3b4c3b303b6c4c3b50204c4c414d532043494c41544920444c4f42204c41434954414d454854414d3b3139344431,
0x3b3b3b3b3b4e3b3b3b3b31373030203e746e6f663c3b4c3b303b6c4c3b51204c4c414d532043494c41544920444c4f42204c41434954414d454854414d3b3239344431,
0x3b3b3b3b3b4e3b3b3b3b32373030203e746e6f663c3b4c3b303b6c4c3b52204c4c414d532043494c41544920444c4f42204c41434954414d454854414d3b3339344431,
0x3b3b3b3b3b4e3b3b3b3b33373030203e746e6f663c3b4c3b303b6c4c3b53204c4c414d532043494c41544920444c4f42204c41434954414d454854414d3b3439344431,
0x3b3b3b3b3b4e3b3b3b3b34373030203e746e6f663c3b4c3b303b6c4c3b54204c4c414d532043494c41544920444c4f42204c41434954414d454854414d3b3539344431,
0x3b3b3b3b3b4e3b3b3b3b35373030203e746e6f663c3b4c3b303b6c4c3b55204c4c414d532043494c41544920444c4f42204c41434954414d454854414d3b3639344431,
0x3b3b3b3b3b4e3b3b3b3b36373030203e746e6f663c3b4c3b303b6c4c3b56204c4c414d532043494c41544920444c4f42204c41434954414d454854414d3b3739344431,
0x3b3b3b3b3b4e3b3b3b3b37373030203e746e6f663c3b4c3b303b6c4c3b57204c4c414d532043494c41544920444c4f42204c41434954414d454854414d3b3839344431,
0x3b3b3b3b3b4e3b3b3b3b38373030203e746e6f663c3b4c3b303b6c4c3b58204c4c414d532043494c41544920444c4f42204c41434954414d454854414d3b3939344431,
0x3b3b3b3b3b4e3b3b3b3b39373030203e746e6f663c3b4c3b303b6c4c3b59204c4c414d532043494c41544920444c4f42204c41434954414d454854414d3b4139344431,
0x3b3b3b3b3b4e3b3b3b3b41373030203e746e6f663c3b4c3b303b6c4c3b5a204c4c414d532043494c41544920444c4f42204c41434954414d454854414d3b4239344431,
0x3b3b3b3b3b4e3b3b3b3b31343030203e746e6f663c3b4c3b303b754c3b41204c41544950414320545049524353204c41434954414d454854414d3b4339344431,
0x3b3b3b3b3b4e3b3b3b3b33343030203e746e6f663c3b4c3b303b754c3b43204c41544950414320545049524353204c41434954414d454854414d3b4539344431,
0x3b3b3b3b3b4e3b3b3b3b34343030203e746e6f663c3b4c3b303b754c3b44204c41544950414320545049524353204c41434954414d454854414d3b4639344431,
0x3b3b3b3b3b4e3b3b3b3b37343030203e746e6f663c3b4c3b303b754c3b47204c41544950414320545049524353204c41434954414d454854414d3b3241344431,
0x3b3b3b3b3b4e3b3b3b3b41343030203e746e6f663c3b4c3b303b754c3b4a204c41544950414320545049524353204c41434954414d454854414d3b3541344431,
0x3b3b3b3b3b4e3b3b3b3b42343030203e746e6f663c3b4c3b303b754c3b4b204c41544950414320545049524353204c41434954414d454854414d3b3641344431,
0x3b3b3b3b3b4e3b3b3b3b45343030203e746e6f663c3b4c3b303b754c3b4e204c41544950414320545049524353204c41434954414d454854414d3b3941344431,
0x3b3b3b3b3b4e3b3b3b3b46343030203e746e6f663c3b4c3b303b754c3b4f204c41544950414320545049524353204c41434954414d454854414d3b4141344431,
0x3b3b3b3b3b4e3b3b3b3b30353030203e746e6f663c3b4c3b303b754c3b50204c41544950414320545049524353204c41434954414d454854414d3b4241344431,
0x3b3b3b3b3b4e3b3b3b3b31353030203e746e6f663c3b4c3b303b754c3b51204c41544950414320545049524353204c41434954414d454854414d3b4341344431,
0x3b3b3b3b3b4e3b3b3b3b33353030203e746e6f663c3b4c3b303b754c3b53204c41544950414320545049524353204c41434954414d454854414d3b4541344431,
0x3b3b3b3b3b4e3b3b3b3b34353030203e746e6f663c3b4c3b303b754c3b54204c41544950414320545049524353204c41434954414d454854414d3b4641344431,
0x3b3b3b3b3b4e3b3b3b3b35353030203e746e6f663c3b4c3b303b754c3b55204c41544950414320545049524353204c41434954414d454854414d3b3042344431,
0x3b3b3b3b3b4e3b3b3b3b36353030203e746e6f663c3b4c3b303b754c3b56204c41544950414320545049524353204c41434954414d454854414d3b3142344431,
0x3b3b3b3b3b4e3b3b3b3b37353030203e746e6f663c3b4c3b303b754c3b57204c41544950414320545049524353204c41434954414d454854414d3b3242344431,
0x3b3b3b3b3b4e3b3b3b3b38353030203e746e6f663c3b4c3b303b754c3b58204c41544950414320545049524353204c41434954414d454854414d3b3342344431,
0x3b3b3b3b3b4e3b3b3b3b39353030203e746e6f663c3b4c3b303b754c3b59204c41544950414320545049524353204c41434954414d454854414d3b3442344431,
0x3b3b3b3b3b4e3b3b3b3b41353030203e746e6f663c3b4c3b303b754c3b5a204c41544950414320545049524353204c41434954414d454854414d3b3542344431,
0x3b3b3b3b3b4e3b3b3b3b31363030203e746e6f663c3b4c3b303b6c4c3b41204c4c414d5320545049524353204c41434954414d454854414d3b3642344431,
0x3b3b3b3b3b4e3b3b3b3b32363030203e746e6f663c3b4c3b303b6c4c3b42204c4c414d5320545049524353204c41434954414d454854414d3b3742344431,
0x3b3b3b3b3b4e3b3b3b3b33363030203e746e6f663c3b4c3b303b6c4c3b43204c4c414d5320545049524353204c41434954414d454854414d3b3842344431,
0x3b3b3b3b3b4e3b3b3b3b34363030203e746e6f663c3b4c3b303b6c4c3b44204c4c414d5320545049524353204c41434954414d454854414d3b3942344431,
0x3b3b3b3b3b4e3b3b3b3b36363030203e746e6f663c3b4c3b303b6c4c3b46204c4c414d5320545049524353204c41434954414d454854414d3b4242344431,
0x3b3b3b3b3b4e3b3b3b3b38363030203e746e6f663c3b4c3b303b6c4c3b48204c4c414d5320545049524353204c41434954414d454854414d3b4442344431,
0x3b3b3b3b3b4e3b3b3b3b39363030203e746e6f663c3b4c3b303b6c4c3b49204c4c414d5320545049524353204c41434954414d454854414d3b4542344431,
0x3b3b3b3b3b4e3b3b3b3b41363030203e746e6f663c3b4c3b303b6c4c3b4a204c4c414d5320545049524353204c41434954414d454854414d3b4642344431,
0x3b3b3b3b3b4e3b3b3b3b42363030203e746e6f663c3b4c3b303b6c4c3b4b204c4c414d5320545049524353204c41434954414d454854414d3b3043344431,
0x3b3b3b3b3b4e3b3b3b3b43363030203e746e6f663c3b4c3b303b6c4c3b4c204c4c414d5320545049524353204c41434954414d454854414d3b3143344431,
0x3b3b3b3b3b4e3b3b3b3b44363030203e746e6f663c3b4c3b303b6c4c3b4d204c4c414d5320545049524353204c41434954414d454854414d3b3243344431,
0x3b3b3b3b3b4e3b3b3b3b45363030203e746e6f663c3b4c3b303b6c4c3b4e204c4c414d5320545049524353204c41434954414d454854414d3b3343344431,
0x3b3b3b3b3b4e3b3b3b3b30373030203e746e6f663c3b4c3b303b6c4c3b50204c4c414d5320545049524353204c41434954414d454854414d3b3543344431,
0x3b3b3b3b3b4e3b3b3b3b31373030203e746e6f663c3b4c3b303b6c4c3b51204c4c414d5320545049524353204c41434954414d454854414d3b3643344431,
0x3b3b3b3b3b4e3b3b3b3b32373030203e746e6f663c3b4c3b303b6c4c3b52204c4c414d5320545049524353204c41434954414d454854414d3b3743344431,
0x3b3b3b3b3b4e3b3b3b3b33373030203e746e6f663c3b4c3b303b6c4c3b53204c4c414d5320545049524353204c41434954414d454854414d3b3843344431,
0x3b3b3b3b3b4e3b3b3b3b34373030203e746e6f663c3b4c3b303b6c4c3b54204c4c414d5320545049524353204c41434954414d454854414d3b3943344431,
0x3b3b3b3b3b4e3b3b3b3b35373030203e746e6f663c3b4c3b303b6c4c3b55204c4c414d5320545049524353204c41434954414d454854414d3b4143344431,
0x3b3b3b3b3b4e3b3b3b3b36373030203e746e6f663c3b4c3b303b6c4c3b56204c4c414d5320545049524353204c41434954414d454854414d3b4243344431,
0x3b3b3b3b3b4e3b3b3b3b37373030203e746e6f663c3b4c3b303b6c4c3b57204c4c414d5320545049524353204c41434954414d454854414d3b4343344431,
0x3b3b3b3b3b4e3b3b3b3b38373030203e746e6f663c3b4c3b303b6c4c3b58204c4c414d5320545049524353204c41434954414d454854414d3b4443344431,
0x3b3b3b3b3b4e3b3b3b3b39373030203e746e6f663c3b4c3b303b6c4c3b59204c4c414d5320545049524353204c41434954414d454854414d3b4543344431,
0x3b3b3b3b3b4e3b3b3b3b41373030203e746e6f663c3b4c3b303b6c4c3b5a204c4c414d5320545049524353204c41434954414d454854414d3b4643344431,
0x3b3b3b3b3b4e3b3b3b3b31343030203e746e6f663c3b4c3b303b754c3b41204c4154495041432054504952435320444c4f42204c41434954414d454854414d3b3044344431,
0x3b3b3b3b3b4e3b3b3b3b32343030203e746e6f663c3b4c3b303b754c3b42204c4154495041432054504952435320444c4f42204c41434954414d454854414d3b3144344431,
0x3b3b3b3b3b4e3b3b3b3b33343030203e746e6f663c3b4c3b303b754c3b43204c4154495041432054504952435320444c4f42204c41434954414d454854414d3b3244344431,
0x3b3b3b3b3b4e3b3b3b3b34343030203e746e6f663c3b4c3b303b754c3b44204c4154495041432054504952435320444c4f42204c41434954414d454854414d3b3344344431,
0x3b3b3b3b3b4e3b3b3b3b35343030203e746e6f663c3b4c3b303b754c3b45204c4154495041432054504952435320444c4f42204c41434954414d454854414d3b3444344431,
0x3b3b3b3b3b4e3b3b3b3b36343030203e746e6f663c3b4c3b303b754c3b46204c4154495041432054504952435320444c4f42204c41434954414d454854414d3b3544344431,
0x3b3b3b3b3b4e3b3b3b3b37343030203e746e6f663c3b4c3b303b754c3b47204c4154495041432054504952435320444c4f42204c41434954414d454854414d3b3644344431,
0x3b3b3b3b3b4e3b3b3b3b38343030203e746e6f663c3b4c3b303b754c3b48204c4154495041432054504952435320444c4f42204c41434954414d454854414d3b3744344431,
0x3b3b3b3b3b4e3b3b3b3b39343030203e746e6f663c3b4c3b303b754c3b49204c4154495041432054504952435320444c4f42204c41434954414d454854414d3b3844344431,
0x3b3b3b3b3b4e3b3b3b3b41343030203e746e6f663c3b4c3b303b754c3b4a204c4154495041432054504952435320444c4f42204c41434954414d454854414d3b3944344431,
0x3b3b3b3b3b4e3b3b3b3b42343030203e746e6f663c3b4c3b303b754c3b4b204c4154495041432054504952435320444c4f42204c41434954414d454854414d3b4144344431,
0x3b3b3b3b3b4e3b3b3b3b43343030203e746e6f663c3b4c3b303b754c3b4c204c4154495041432054504952435320444c4f42204c41434954414d454854414d3b4244344431,
0x3b3b3b3b3b4e3b3b3b3b44343030203e746e6f663c3b4c3b303b754c3b4d204c4154495041432054504952435320444c4f42204c41434954414d454854414d3b4344344431]

/-- src/u5e/props/UnicodeData.txt lines 25857-26112. -/
def rawUcd101 : List Nat := [
0x3b3b3b3b3b4e3b3b3b3b45343030203e746e6f663c3b4c3b303b754c3b4e204c4154495041432054504952435320444c4f42204c41434954414d454854414d3b4444344431,
0x3b3b3b3b3b4e3b3b3b3b46343030203e746e6f663c3b4c3b303b754c3b4f204c4154495041432054504952435320444c4f42204c41434954414d454854414d3b4544344431,
0x3b3b3b3b3b4e3b3b3b3b30353030203e746e6f663c3b4c3b303b754c3b50204c4154495041432054504952435320444c4f42204c41434954414d454854414d3b4644344431,
0x3b3b3b3b3b4e3b3b3b3b31353030203e746e6f663c3b4c3b303b754c3b51204c4154495041432054504952435320444c4f42204c41434954414d454854414d3b3045344431,
0x3b3b3b3b3b4e3b3b3b3b32353030203e746e6f663c3b4c3b303b754c3b52204c4154495041432054504952435320444c4f42204c41434954414d454854414d3b3145344431,
0x3b3b3b3b3b4e3b3b3b3b33353030203e746e6f663c3b4c3b303b754c3b53204c4154495041432054504952435320444c4f42204c41434954414d454854414d3b3245344431,
0x3b3b3b3b3b4e3b3b3b3b34353030203e746e6f663c3b4c3b303b754c3b54204c4154495041432054504952435320444c4f42204c41434954414d454854414d3b3345344431,
0x3b3b3b3b3b4e3b3b3b3b35353030203e746e6f663c3b4c3b303b754c3b55204c4154495041432054504952435320444c4f42204c41434954414d454854414d3b3445344431,
0x3b3b3b3b3b4e3b3b3b3b36353030203e746e6f663c3b4c3b303b754c3b56204c4154495041432054504952435320444c4f42204c41434954414d454854414d3b3545344431,
0x3b3b3b3b3b4e3b3b3b3b37353030203e746e6f663c3b4c3b303b754c3b57204c4154495041432054504952435320444c4f42204c41434954414d454854414d3b3645344431,
0x3b3b3b3b3b4e3b3b3b3b38353030203e746e6f663c3b4c3b303b754c3b58204c4154495041432054504952435320444c4f42204c41434954414d454854414d3b3745344431,
0x3b3b3b3b3b4e3b3b3b3b39353030203e746e6f663c3b4c3b303b754c3b59204c4154495041432054504952435320444c4f42204c41434954414d454854414d3b3845344431,
0x3b3b3b3b3b4e3b3b3b3b41353030203e746e6f663c3b4c3b303b754c3b5a204c4154495041432054504952435320444c4f42204c41434954414d454854414d3b3945344431,
0x3b3b3b3b3b4e3b3b3b3b31363030203e746e6f663c3b4c3b303b6c4c3b41204c4c414d532054504952435320444c4f42204c41434954414d454854414d3b4145344431,
0x3b3b3b3b3b4e3b3b3b3b32363030203e746e6f663c3b4c3b303b6c4c3b42204c4c414d532054504952435320444c4f42204c41434954414d454854414d3b4245344431,
0x3b3b3b3b3b4e3b3b3b3b33363030203e746e6f663c3b4c3b303b6c4c3b43204c4c414d532054504952435320444c4f42204c41434954414d454854414d3b4345344431,
0x3b3b3b3b3b4e3b3b3b3b34363030203e746e6f663c3b4c3b303b6c4c3b44204c4c414d532054504952435320444c4f42204c41434954414d454854414d3b4445344431,
0x3b3b3b3b3b4e3b3b3b3b35363030203e746e6f663c3b4c3b303b6c4c3b45204c4c414d532054504952435320444c4f42204c41434954414d454854414d3b4545344431,
0x3b3b3b3b3b4e3b3b3b3b36363030203e746e6f663c3b4c3b303b6c4c3b46204c4c414d532054504952435320444c4f42204c41434954414d454854414d3b4645344431,
0x3b3b3b3b3b4e3b3b3b3b37363030203e746e6f663c3b4c3b303b6c4c3b47204c4c414d532054504952435320444c4f42204c41434954414d454854414d3b3046344431,
0x3b3b3b3b3b4e3b3b3b3b38363030203e746e6f663c3b4c3b303b6c4c3b48204c4c414d532054504952435320444c4f42204c41434954414d454854414d3b3146344431,
0x3b3b3b3b3b4e3b3b3b3b39363030203e746e6f663c3b4c3b303b6c4c3b49204c4c414d532054504952435320444c4f42204c41434954414d454854414d3b3246344431,
0x3b3b3b3b3b4e3b3b3b3b41363030203e746e6f663c3b4c3b303b6c4c3b4a204c4c414d532054504952435320444c4f42204c41434954414d454854414d3b3346344431,
0x3b3b3b3b3b4e3b3b3b3b42363030203e746e6f663c3b4c3b303b6c4c3b4b204c4c414d532054504952435320444c4f42204c41434954414d454854414d3b3446344431,
0x3b3b3b3b3b4e3b3b3b3b43363030203e746e6f663c3b4c3b303b6c4c3b4c204c4c414d532054504952435320444c4f42204c41434954414d454854414d3b3546344431,
0x3b3b3b3b3b4e3b3b3b3b44363030203e746e6f663c3b4c3b303b6c4c3b4d204c4c414d532054504952435320444c4f42204c41434954414d454854414d3b3646344431,
0x3b3b3b3b3b4e3b3b3b3b45363030203e746e6f663c3b4c3b303b6c4c3b4e204c4c414d532054504952435320444c4f42204c41434954414d454854414d3b3746344431,
0x3b3b3b3b3b4e3b3b3b3b46363030203e746e6f663c3b4c3b303b6c4c3b4f204c4c414d532054504952435320444c4f42204c41434954414d454854414d3b3846344431,
0x3b3b3b3b3b4e3b3b3b3b30373030203e746e6f663c3b4c3b303b6c4c3b50204c4c414d532054504952435320444c4f42204c41434954414d454854414d3b3946344431,
0x3b3b3b3b3b4e3b3b3b3b31373030203e746e6f663c3b4c3b303b6c4c3b51204c4c414d532054504952435320444c4f42204c41434954414d454854414d3b4146344431,
0x3b3b3b3b3b4e3b3b3b3b32373030203e746e6f663c3b4c3b303b6c4c3b52204c4c414d532054504952435320444c4f42204c41434954414d454854414d3b4246344431,
0x3b3b3b3b3b4e3b3b3b3b33373030203e746e6f663c3b4c3b303b6c4c3b53204c4c414d532054504952435320444c4f42204c41434954414d454854414d3b4346344431,
0x3b3b3b3b3b4e3b3b3b3b34373030203e746e6f663c3b4c3b303b6c4c3b54204c4c414d532054504952435320444c4f42204c41434954414d454854414d3b4446344431,
0x3b3b3b3b3b4e3b3b3b3b35373030203e746e6f663c3b4c3b303b6c4c3b55204c4c414d532054504952435320444c4f42204c41434954414d454854414d3b4546344431,
0x3b3b3b3b3b4e3b3b3b3b36373030203e746e6f663c3b4c3b303b6c4c3b56204c4c414d532054504952435320444c4f42204c41434954414d454854414d3b4646344431,
0x3b3b3b3b3b4e3b3b3b3b37373030203e746e6f663c3b4c3b303b6c4c3b57204c4c414d532054504952435320444c4f42204c41434954414d454854414d3b3030354431,
0x3b3b3b3b3b4e3b3b3b3b38373030203e746e6f663c3b4c3b303b6c4c3b58204c4c414d532054504952435320444c4f42204c41434954414d454854414d3b3130354431,
0x3b3b3b3b3b4e3b3b3b3b39373030203e746e6f663c3b4c3b303b6c4c3b59204c4c414d532054504952435320444c4f42204c41434954414d454854414d3b3230354431,
0x3b3b3b3b3b4e3b3b3b3b41373030203e746e6f663c3b4c3b303b6c4c3b5a204c4c414d532054504952435320444c4f42204c41434954414d454854414d3b3330354431,
0x3b3b3b3b3b4e3b3b3b3b31343030203e746e6f663c3b4c3b303b754c3b41204c415449504143205255544b415246204c41434954414d454854414d3b3430354431,
0x3b3b3b3b3b4e3b3b3b3b32343030203e746e6f663c3b4c3b303b754c3b42204c415449504143205255544b415246204c41434954414d454854414d3b3530354431,
0x3b3b3b3b3b4e3b3b3b3b34343030203e746e6f663c3b4c3b303b754c3b44204c415449504143205255544b415246204c41434954414d454854414d3b3730354431,
0x3b3b3b3b3b4e3b3b3b3b35343030203e746e6f663c3b4c3b303b754c3b45204c415449504143205255544b415246204c41434954414d454854414d3b3830354431,
0x3b3b3b3b3b4e3b3b3b3b36343030203e746e6f663c3b4c3b303b754c3b46204c415449504143205255544b415246204c41434954414d454854414d3b3930354431,
0x3b3b3b3b3b4e3b3b3b3b37343030203e746e6f663c3b4c3b303b754c3b47204c415449504143205255544b415246204c41434954414d454854414d3b4130354431,
0x3b3b3b3b3b4e3b3b3b3b41343030203e746e6f663c3b4c3b303b754c3b4a204c415449504143205255544b415246204c41434954414d454854414d3b4430354431,
0x3b3b3b3b3b4e3b3b3b3b42343030203e746e6f663c3b4c3b303b754c3b4b204c415449504143205255544b415246204c41434954414d454854414d3b4530354431,
0x3b3b3b3b3b4e3b3b3b3b43343030203e746e6f663c3b4c3b303b754c3b4c204c415449504143205255544b415246204c41434954414d454854414d3b4630354431,
0x3b3b3b3b3b4e3b3b3b3b44343030203e746e6f663c3b4c3b303b754c3b4d204c415449504143205255544b415246204c41434954414d454854414d3b3031354431,
0x3b3b3b3b3b4e3b3b3b3b45343030203e746e6f663c3b4c3b303b754c3b4e204c415449504143205255544b415246204c41434954414d454854414d3b3131354431,
0x3b3b3b3b3b4e3b3b3b3b46343030203e746e6f663c3b4c3b303b754c3b4f204c415449504143205255544b415246204c41434954414d454854414d3b3231354431,
0x3b3b3b3b3b4e3b3b3b3b30353030203e746e6f663c3b4c3b303b754c3b50204c415449504143205255544b415246204c41434954414d454854414d3b3331354431,
0x3b3b3b3b3b4e3b3b3b3b31353030203e746e6f663c3b4c3b303b754c3b51204c415449504143205255544b415246204c41434954414d454854414d3b3431354431,
0x3b3b3b3b3b4e3b3b3b3b33353030203e746e6f663c3b4c3b303b754c3b53204c415449504143205255544b415246204c41434954414d454854414d3b3631354431,
0x3b3b3b3b3b4e3b3b3b3b34353030203e746e6f663c3b4c3b303b754c3b54204c415449504143205255544b415246204c41434954414d454854414d3b3731354431,
0x3b3b3b3b3b4e3b3b3b3b35353030203e746e6f663c3b4c3b303b754c3b55204c415449504143205255544b415246204c41434954414d454854414d3b3831354431,
0x3b3b3b3b3b4e3b3b3b3b36353030203e746e6f663c3b4c3b303b754c3b56204c415449504143205255544b415246204c41434954414d454854414d3b3931354431,
0x3b3b3b3b3b4e3b3b3b3b37353030203e746e6f663c3b4c3b303b754c3b57204c415449504143205255544b415246204c41434954414d454854414d3b4131354431,
0x3b3b3b3b3b4e3b3b3b3b38353030203e746e6f663c3b4c3b303b754c3b58204c415449504143205255544b415246204c41434954414d454854414d3b4231354431,
0x3b3b3b3b3b4e3b3b3b3b39353030203e746e6f663c3b4c3b303b754c3b59204c415449504143205255544b415246204c41434954414d454854414d3b4331354431,
0x3b3b3b3b3b4e3b3b3b3b31363030203e746e6f663c3b4c3b303b6c4c3b41204c4c414d53205255544b415246204c41434954414d454854414d3b4531354431,
0x3b3b3b3b3b4e3b3b3b3b32363030203e746e6f663c3b4c3b303b6c4c3b42204c4c414d53205255544b415246204c41434954414d454854414d3b4631354431,
0x3b3b3b3b3b4e3b3b3b3b33363030203e746e6f663c3b4c3b303b6c4c3b43204c4c414d53205255544b415246204c41434954414d454854414d3b3032354431,
0x3b3b3b3b3b4e3b3b3b3b34363030203e746e6f663c3b4c3b303b6c4c3b44204c4c414d53205255544b415246204c41434954414d454854414d3b3132354431,
0x3b3b3b3b3b4e3b3b3b3b35363030203e746e6f663c3b4c3b303b6c4c3b45204c4c414d53205255544b415246204c41434954414d454854414d3b3232354431,
0x3b3b3b3b3b4e3b3b3b3b36363030203e746e6f663c3b4c3b303b6c4c3b46204c4c414d53205255544b415246204c41434954414d454854414d3b3332354431,
0x3b3b3b3b3b4e3b3b3b3b37363030203e746e6f663c3b4c3b303b6c4c3b47204c4c414d53205255544b415246204c41434954414d454854414d3b3432354431,
0x3b3b3b3b3b4e3b3b3b3b38363030203e746e6f663c3b4c3b303b6c4c3b48204c4c414d53205255544b415246204c41434954414d454854414d3b3532354431,
0x3b3b3b3b3b4e3b3b3b3b39363030203e746e6f663c3b4c3b303b6c4c3b49204c4c414d53205255544b415246204c41434954414d454854414d3b3632354431,
0x3b3b3b3b3b4e3b3b3b3b41363030203e746e6f663c3b4c3b303b6c4c3b4a204c4c414d53205255544b415246204c41434954414d454854414d3b3732354431,
0x3b3b3b3b3b4e3b3b3b3b42363030203e746e6f663c3b4c3b303b6c4c3b4b204c4c414d53205255544b415246204c41434954414d454854414d3b3832354431,
0x3b3b3b3b3b4e3b3b3b3b43363030203e746e6f663c3b4c3b303b6c4c3b4c204c4c414d53205255544b415246204c41434954414d454854414d3b3932354431,
0x3b3b3b3b3b4e3b3b3b3b44363030203e746e6f663c3b4c3b303b6c4c3b4d204c4c414d53205255544b415246204c41434954414d454854414d3b4132354431,
0x3b3b3b3b3b4e3b3b3b3b45363030203e746e6f663c3b4c3b303b6c4c3b4e204c4c414d53205255544b415246204c41434954414d454854414d3b4232354431,
0x3b3b3b3b3b4e3b3b3b3b46363030203e746e6f663c3b4c3b303b6c4c3b4f204c4c414d53205255544b415246204c41434954414d454854414d3b4332354431,
0x3b3b3b3b3b4e3b3b3b3b30373030203e746e6f663c3b4c3b303b6c4c3b50204c4c414d53205255544b415246204c41434954414d454854414d3b4432354431,
0x3b3b3b3b3b4e3b3b3b3b31373030203e746e6f663c3b4c3b303b6c4c3b51204c4c414d53205255544b415246204c41434954414d454854414d3b4532354431,
0x3b3b3b3b3b4e3b3b3b3b32373030203e746e6f663c3b4c3b303b6c4c3b52204c4c414d53205255544b415246204c41434954414d454854414d3b4632354431,
0x3b3b3b3b3b4e3b3b3b3b33373030203e746e6f663c3b4c3b303b6c4c3b53204c4c414d53205255544b415246204c41434954414d454854414d3b3033354431,
0x3b3b3b3b3b4e3b3b3b3b34373030203e746e6f663c3b4c3b303b6c4c3b54204c4c414d53205255544b415246204c41434954414d454854414d3b3133354431,
0x3b3b3b3b3b4e3b3b3b3b35373030203e746e6f663c3b4c3b303b6c4c3b55204c4c414d53205255544b415246204c41434954414d454854414d3b3233354431,
0x3b3b3b3b3b4e3b3b3b3b36373030203e746e6f663c3b4c3b303b6c4c3b56204c4c414d53205255544b415246204c41434954414d454854414d3b3333354431,
0x3b3b3b3b3b4e3b3b3b3b37373030203e746e6f663c3b4c3b303b6c4c3b57204c4c414d53205255544b415246204c41434954414d454854414d3b3433354431,
0x3b3b3b3b3b4e3b3b3b3b38373030203e746e6f663c3b4c3b303b6c4c3b58204c4c414d53205255544b415246204c41434954414d454854414d3b3533354431,
0x3b3b3b3b3b4e3b3b3b3b39373030203e746e6f663c3b4c3b303b6c4c3b59204c4c414d53205255544b415246204c41434954414d454854414d3b3633354431,
0x3b3b3b3b3b4e3b3b3b3b41373030203e746e6f663c3b4c3b303b6c4c3b5a204c4c414d53205255544b415246204c41434954414d454854414d3b3733354431,
0x3b3b3b3b3b4e3b3b3b3b31343030203e746e6f663c3b4c3b303b754c3b41204c415449504143204b43555254532d454c42554f44204c41434954414d454854414d3b3833354431,
0x3b3b3b3b3b4e3b3b3b3b32343030203e746e6f663c3b4c3b303b754c3b42204c415449504143204b43555254532d454c42554f44204c41434954414d454854414d3b3933354431,
0x3b3b3b3b3b4e3b3b3b3b34343030203e746e6f663c3b4c3b303b754c3b44204c415449504143204b43555254532d454c42554f44204c41434954414d454854414d3b4233354431,
0x3b3b3b3b3b4e3b3b3b3b35343030203e746e6f663c3b4c3b303b754c3b45204c415449504143204b43555254532d454c42554f44204c41434954414d454854414d3b4333354431,
0x3b3b3b3b3b4e3b3b3b3b36343030203e746e6f663c3b4c3b303b754c3b46204c415449504143204b43555254532d454c42554f44204c41434954414d454854414d3b4433354431,
0x3b3b3b3b3b4e3b3b3b3b37343030203e746e6f663c3b4c3b303b754c3b47204c415449504143204b43555254532d454c42554f44204c41434954414d454854414d3b4533354431,
0x3b3b3b3b3b4e3b3b3b3b39343030203e746e6f663c3b4c3b303b754c3b49204c415449504143204b43555254532d454c42554f44204c41434954414d454854414d3b3034354431,
0x3b3b3b3b3b4e3b3b3b3b41343030203e746e6f663c3b4c3b303b754c3b4a204c415449504143204b43555254532d454c42554f44204c41434954414d454854414d3b3134354431,
0x3b3b3b3b3b4e3b3b3b3b42343030203e746e6f663c3b4c3b303b754c3b4b204c415449504143204b43555254532d454c42554f44204c41434954414d454854414d3b3234354431,
0x3b3b3b3b3b4e3b3b3b3b43343030203e746e6f663c3b4c3b303b754c3b4c204c415449504143204b43555254532d454c42554f44204c41434954414d454854414d3b3334354431,
0x3b3b3b3b3b4e3b3b3b3b44343030203e746e6f663c3b4c3b303b754c3b4d204c415449504143204b43555254532d454c42554f44204c41434954414d454854414d3b3434354431,
0x3b3b3b3b3b4e3b3b3b3b46343030203e746e6f663c3b4c3b303b754c3b4f204c415449504143204b43555254532d454c42554f44204c41434954414d454854414d3b3634354431,
0x3b3b3b3b3b4e3b3b3b3b33353030203e746e6f663c3b4c3b303b754c3b53204c415449504143204b43555254532d454c42554f44204c41434954414d454854414d3b4134354431,
0x3b3b3b3b3b4e3b3b3b3b34353030203e746e6f663c3b4c3b303b754c3b54204c415449504143204b43555254532d454c42554f44204c41434954414d454854414d3b4234354431,
0x3b3b3b3b3b4e3b3b3b3b35353030203e746e6f663c3b4c3b303b754c3b55204c415449504143204b43555254532d454c42554f44204c41434954414d454854414d3b4334354431,
0x3b3b3b3b3b4e3b3b3b3b36353030203e746e6f663c3b4c3b303b754c3b56204c415449504143204b43555254532d454c42554f44204c41434954414d454854414d3b4434354431,
0x3b3b3b3b3b4e3b3b3b3b37353030203e746e6f663c3b4c3b303b754c3b57204c415449504143204b43555254532d454c42554f44204c41434954414d454854414d3b4534354431,
0x3b3b3b3b3b4e3b3b3b3b38353030203e746e6f663c3b4c3b303b754c3b58204c415449504143204b43555254532d454c42554f44204c41434954414d454854414d3b4634354431,
0x3b3b3b3b3b4e3b3b3b3b39353030203e746e6f663c3b4c3b303b754c3b59204c415449504143204b43555254532d454c42554f44204c41434954414d454854414d3b3035354431,
0x3b3b3b3b3b4e3b3b3b3b31363030203e746e6f663c3b4c3b303b6c4c3b41204c4c414d53204b43555254532d454c42554f44204c41434954414d454854414d3b3235354431,
0x3b3b3b3b3b4e3b3b3b3b32363030203e746e6f663c3b4c3b303b6c4c3b42204c4c414d53204b43555254532d454c42554f44204c41434954414d454854414d3b3335354431,
0x3b3b3b3b3b4e3b3b3b3b33363030203e746e6f663c3b4c3b303b6c4c3b43204c4c414d53204b43555254532d454c42554f44204c41434954414d454854414d3b3435354431,
0x3b3b3b3b3b4e3b3b3b3b34363030203e746e6f663c3b4c3b303b6c4c3b44204c4c414d53204b43555254532d454c42554f44204c41434954414d454854414d3b3535354431,
0x3b3b3b3b3b4e3b3b3b3b35363030203e746e6f663c3b4c3b303b6c4c3b45204c4c414d53204b43555254532d454c42554f44204c41434954414d454854414d3b3635354431,
0x3b3b3b3b3b4e3b3b3b3b36363030203e746e6f663c3b4c3b303b6c4c3b46204c4c414d53204b43555254532d454c42554f44204c41434954414d454854414d3b3735354431,
0x3b3b3b3b3b4e3b3b3b3b37363030203e746e6f663c3b4c3b303b6c4c3b47204c4c414d53204b43555254532d454c42554f44204c41434954414d454854414d3b3835354431,
0x3b3b3b3b3b4e3b3b3b3b38363030203e746e6f663c3b4c3b303b6c4c3b48204c4c414d53204b43555254532d454c42554f44204c41434954414d454854414d3b3935354431,
0x3b3b3b3b3b4e3b3b3b3b39363030203e746e6f663c3b4c3b303b6c4c3b49204c4c414d53204b43555254532d454c42554f44204c41434954414d454854414d3b4135354431,
0x3b3b3b3b3b4e3b3b3b3b41363030203e746e6f663c3b4c3b303b6c4c3b4a204c4c414d53204b43555254532d454c42554f44204c41434954414d454854414d3b4235354431,
0x3b3b3b3b3b4e3b3b3b3b42363030203e746e6f663c3b4c3b303b6c4c3b4b204c4c414d53204b43555254532d454c42554f44204c41434954414d454854414d3b4335354431,
0x3b3b3b3b3b4e3b3b3b3b43363030203e746e6f663c3b4c3b303b6c4c3b4c204c4c414d53204b43555254532d454c42554f44204c41434954414d454854414d3b4435354431,
0x3b3b3b3b3b4e3b3b3b3b44363030203e746e6f663c3b4c3b303b6c4c3b4d204c4c414d53204b43555254532d454c42554f44204c41434954414d454854414d3b4535354431,
0x3b3b3b3b3b4e3b3b3b3b45363030203e746e6f663c3b4c3b303b6c4c3b4e204c4c414d53204b43555254532d454c42554f44204c41434954414d454854414d3b4635354431,
0x3b3b3b3b3b4e3b3b3b3b46363030203e746e6f663c3b4c3b303b6c4c3b4f204c4c414d53204b43555254532d454c42554f44204c41434954414d454854414d3b3036354431,
0x3b3b3b3b3b4e3b3b3b3b30373030203e746e6f663c3b4c3b303b6c4c3b50204c4c414d53204b43555254532d454c42554f44204c41434954414d454854414d3b3136354431,
0x3b3b3b3b3b4e3b3b3b3b31373030203e746e6f663c3b4c3b303b6c4c3b51204c4c414d53204b43555254532d454c42554f44204c41434954414d454854414d3b3236354431,
0x3b3b3b3b3b4e3b3b3b3b32373030203e746e6f663c3b4c3b303b6c4c3b52204c4c414d53204b43555254532d454c42554f44204c41434954414d454854414d3b3336354431,
0x3b3b3b3b3b4e3b3b3b3b33373030203e746e6f663c3b4c3b303b6c4c3b53204c4c414d53204b43555254532d454c42554f44204c41434954414d454854414d3b3436354431,
0x3b3b3b3b3b4e3b3b3b3b34373030203e746e6f663c3b4c3b303b6c4c3b54204c4c414d53204b43555254532d454c42554f44204c41434954414d454854414d3b3536354431,
0x3b3b3b3b3b4e3b3b3b3b35373030203e746e6f663c3b4c3b303b6c4c3b55204c4c414d53204b43555254532d454c42554f44204c41434954414d454854414d3b3636354431,
0x3b3b3b3b3b4e3b3b3b3b36373030203e746e6f663c3b4c3b303b6c4c3b56204c4c414d53204b43555254532d454c42554f44204c41434954414d454854414d3b3736354431,
0x3b3b3b3b3b4e3b3b3b3b37373030203e746e6f663c3b4c3b303b6c4c3b57204c4c414d53204b43555254532d454c42554f44204c41434954414d454854414d3b3836354431,
0x3b3b3b3b3b4e3b3b3b3b38373030203e746e6f663c3b4c3b303b6c4c3b58204c4c414d53204b43555254532d454c42554f44204c41434954414d454854414d3b3936354431,
0x3b3b3b3b3b4e3b3b3b3b39373030203e746e6f663c3b4c3b303b6c4c3b59204c4c414d53204b43555254532d454c42554f44204c41434954414d454854414d3b4136354431,
0x3b3b3b3b3b4e3b3b3b3b41373030203e746e6f663c3b4c3b303b6c4c3b5a204c4c414d53204b43555254532d454c42554f44204c41434954414d454854414d3b4236354431,
0x3b3b3b3b3b4e3b3b3b3b31343030203e746e6f663c3b4c3b303b754c3b41204c415449504143205255544b41524620444c4f42204c41434954414d454854414d3b4336354431,
0x3b3b3b3b3b4e3b3b3b3b32343030203e746e6f663c3b4c3b303b754c3b42204c415449504143205255544b41524620444c4f42204c41434954414d454854414d3b4436354431,
0x3b3b3b3b3b4e3b3b3b3b33343030203e746e6f663c3b4c3b303b754c3b43204c415449504143205255544b41524620444c4f42204c41434954414d454854414d3b4536354431,
0x3b3b3b3b3b4e3b3b3b3b34343030203e746e6f663c3b4c3b303b754c3b44204c415449504143205255544b41524620444c4f42204c41434954414d454854414d3b4636354431,
0x3b3b3b3b3b4e3b3b3b3b35343030203e746e6f663c3b4c3b303b754c3b45204c415449504143205255544b41524620444c4f42204c41434954414d454854414d3b3037354431,
0x3b3b3b3b3b4e3b3b3b3b36343030203e746e6f663c3b4c3b303b754c3b46204c415449504143205255544b41524620444c4f42204c41434954414d454854414d3b3137354431,
0x3b3b3b3b3b4e3b3b3b3b37343030203e746e6f663c3b4c3b303b754c3b47204c415449504143205255544b41524620444c4f42204c41434954414d454854414d3b3237354431,
0x3b3b3b3b3b4e3b3b3b3b38343030203e746e6f663c3b4c3b303b754c3b48204c415449504143205255544b41524620444c4f42204c41434954414d454854414d3b3337354431,
0x3b3b3b3b3b4e3b3b3b3b39343030203e746e6f663c3b4c3b303b754c3b49204c415449504143205255544b41524620444c4f42204c41434954414d454854414d3b3437354431,
0x3b3b3b3b3b4e3b3b3b3b41343030203e746e6f663c3b4c3b303b754c3b4a204c415449504143205255544b41524620444c4f42204c41434954414d454854414d3b3537354431,
0x3b3b3b3b3b4e3b3b3b3b42343030203e746e6f663c3b4c3b303b754c3b4b204c415449504143205255544b41524620444c4f42204c41434954414d454854414d3b3637354431,
0x3b3b3b3b3b4e3b3b3b3b43343030203e746e6f663c3b4c3b303b754c3b4c204c415449504143205255544b41524620444c4f42204c41434954414d454854414d3b3737354431,
0x3b3b3b3b3b4e3b3b3b3b44343030203e746e6f663c3b4c3b303b754c3b4d204c415449504143205255544b41524620444c4f42204c41434954414d454854414d3b3837354431,
0x3b3b3b3b3b4e3b3b3b3b45343030203e746e6f663c3b4c3b303b754c3b4e204c415449504143205255544b41524620444c4f42204c41434954414d454854414d3b3937354431,
0x3b3b3b3b3b4e3b3b3b3b46343030203e746e6f663c3b4c3b303b754c3b4f204c415449504143205255544b41524620444c4f42204c41434954414d454854414d3b4137354431,
0x3b3b3b3b3b4e3b3b3b3b30353030203e746e6f663c3b4c3b303b754c3b50204c415449504143205255544b41524620444c4f42204c41434954414d454854414d3b4237354431,
0x3b3b3b3b3b4e3b3b3b3b31353030203e746e6f663c3b4c3b303b754c3b51204c415449504143205255544b41524620444c4f42204c41434954414d454854414d3b4337354431,
0x3b3b3b3b3b4e3b3b3b3b32353030203e746e6f663c3b4c3b303b754c3b52204c415449504143205255544b41524620444c4f42204c41434954414d454854414d3b4437354431,
0x3b3b3b3b3b4e3b3b3b3b33353030203e746e6f663c3b4c3b303b754c3b53204c415449504143205255544b41524620444c4f42204c41434954414d454854414d3b4537354431,
0x3b3b3b3b3b4e3b3b3b3b34353030203e746e6f663c3b4c3b303b754c3b54204c415449504143205255544b41524620444c4f42204c41434954414d454854414d3b4637354431,
0x3b3b3b3b3b4e3b3b3b3b35353030203e746e6f663c3b4c3b303b754c3b55204c415449504143205255544b41524620444c4f42204c41434954414d454854414d3b3038354431,
0x3b3b3b3b3b4e3b3b3b3b36353030203e746e6f663c3b4c3b303b754c3b56204c415449504143205255544b41524620444c4f42204c41434954414d454854414d3b3138354431,
0x3b3b3b3b3b4e3b3b3b3b37353030203e746e6f663c3b4c3b303b754c3b57204c415449504143205255544b41524620444c4f42204c41434954414d454854414d3b3238354431,
0x3b3b3b3b3b4e3b3b3b3b38353030203e746e6f663c3b4c3b303b754c3b58204c415449504143205255544b41524620444c4f42204c41434954414d454854414d3b3338354431,
0x3b3b3b3b3b4e3b3b3b3b39353030203e746e6f663c3b4c3b303b754c3b59204c415449504143205255544b41524620444c4f42204c41434954414d454854414d3b3438354431,
0x3b3b3b3b3b4e3b3b3b3b41353030203e746e6f663c3b4c3b303b754c3b5a204c415449504143205255544b41524620444c4f42204c41434954414d454854414d3b3538354431,
0x3b3b3b3b3b4e3b3b3b3b31363030203e746e6f663c3b4c3b303b6c4c3b41204c4c414d53205255544b41524620444c4f42204c41434954414d454854414d3b3638354431,
0x3b3b3b3b3b4e3b3b3b3b32363030203e746e6f663c3b4c3b303b6c4c3b42204c4c414d53205255544b41524620444c4f42204c41434954414d454854414d3b3738354431,
0x3b3b3b3b3b4e3b3b3b3b33363030203e746e6f663c3b4c3b303b6c4c3b43204c4c414d53205255544b41524620444c4f42204c41434954414d454854414d3b3838354431,
0x3b3b3b3b3b4e3b3b3b3b34363030203e746e6f663c3b4c3b303b6c4c3b44204c4c414d53205255544b41524620444c4f42204c41434954414d454854414d3b3938354431,
0x3b3b3b3b3b4e3b3b3b3b35363030203e746e6f663c3b4c3b303b6c4c3b45204c4c414d53205255544b41524620444c4f42204c41434954414d454854414d3b4138354431,
0x3b3b3b3b3b4e3b3b3b3b36363030203e746e6f663c3b4c3b303b6c4c3b46204c4c414d53205255544b41524620444c4f42204c41434954414d454854414d3b4238354431,
0x3b3b3b3b3b4e3b3b3b3b37363030203e746e6f663c3b4c3b303b6c4c3b47204c4c414d53205255544b41524620444c4f42204c41434954414d454854414d3b4338354431,
0x3b3b3b3b3b4e3b3b3b3b38363030203e746e6f663c3b4c3b303b6c4c3b48204c4c414d53205255544b41524620444c4f42204c41434954414d454854414d3b4438354431,
0x3b3b3b3b3b4e3b3b3b3b39363030203e746e6f663c3b4c3b303b6c4c3b49204c4c414d53205255544b41524620444c4f42204c41434954414d454854414d3b4538354431,
0x3b3b3b3b3b4e3b3b3b3b41363030203e746e6f663c3b4c3b303b6c4c3b4a204c4c414d53205255544b41524620444c4f42204c41434954414d454854414d3b4638354431,
0x3b3b3b3b3b4e3b3b3b3b42363030203e746e6f663c3b4c3b303b6c4c3b4b204c4c414d53205255544b41524620444c4f42204c41434954414d454854414d3b3039354431,
0x3b3b3b3b3b4e3b3b3b3b43363030203e746e6f663c3b4c3b303b6c4c3b4c204c4c414d53205255544b41524620444c4f42204c41434954414d454854414d3b3139354431,
0x3b3b3b3b3b4e3b3b3b3b44363030203e746e6f663c3b4c3b303b6c4c3b4d204c4c414d53205255544b41524620444c4f42204c41434954414d454854414d3b3239354431,
0x3b3b3b3b3b4e3b3b3b3b45363030203e746e6f663c3b4c3b303b6c4c3b4e204c4c414d53205255544b41524620444c4f42204c41434954414d454854414d3b3339354431,
0x3b3b3b3b3b4e3b3b3b3b46363030203e746e6f663c3b4c3b303b6c4c3b4f204c4c414d53205255544b41524620444c4f42204c41434954414d454854414d3b3439354431,
0x3b3b3b3b3b4e3b3b3b3b30373030203e746e6f663c3b4c3b303b6c4c3b50204c4c414d53205255544b41524620444c4f42204c41434954414d454854414d3b3539354431,
0x3b3b3b3b3b4e3b3b3b3b31373030203e746e6f663c3b4c3b303b6c4c3b51204c4c414d53205255544b41524620444c4f42204c41434954414d454854414d3b3639354431,
0x3b3b3b3b3b4e3b3b3b3b32373030203e746e6f663c3b4c3b303b6c4c3b52204c4c414d53205255544b41524620444c4f42204c41434954414d454854414d3b3739354431,
0x3b3b3b3b3b4e3b3b3b3b33373030203e746e6f663c3b4c3b303b6c4c3b53204c4c414d53205255544b41524620444c4f42204c41434954414d454854414d3b3839354431,
0x3b3b3b3b3b4e3b3b3b3b34373030203e746e6f663c3b4c3b303b6c4c3b54204c4c414d53205255544b41524620444c4f42204c41434954414d454854414d3b3939354431,
0x3b3b3b3b3b4e3b3b3b3b35373030203e746e6f663c3b4c3b303b6c4c3b55204c4c414d53205255544b41524620444c4f42204c41434954414d454854414d3b4139354431,
0x3b3b3b3b3b4e3b3b3b3b36373030203e746e6f663c3b4c3b303b6c4c3b56204c4c414d53205255544b41524620444c4f42204c41434954414d454854414d3b4239354431,
0x3b3b3b3b3b4e3b3b3b3b37373030203e746e6f663c3b4c3b303b6c4c3b57204c4c414d53205255544b41524620444c4f42204c41434954414d454854414d3b4339354431,
0x3b3b3b3b3b4e3b3b3b3b38373030203e746e6f663c3b4c3b303b6c4c3b58204c4c414d53205255544b41524620444c4f42204c41434954414d454854414d3b4439354431,
0x3b3b3b3b3b4e3b3b3b3b39373030203e746e6f663c3b4c3b303b6c4c3b59204c4c414d53205255544b41524620444c4f42204c41434954414d454854414d3b4539354431,
0x3b3b3b3b3b4e3b3b3b3b41373030203e746e6f663c3b4c3b303b6c4c3b5a204c4c414d53205255544b41524620444c4f42204c41434954414d454854414d3b4639354431,
0x3b3b3b3b3b4e3b3b3b3b31343030203e746e6f663c3b4c3b303b754c3b41204c4154495041432046495245532d534e4153204c41434954414d454854414d3b3041354431,
0x3b3b3b3b3b4e3b3b3b3b32343030203e746e6f663c3b4c3b303b754c3b42204c4154495041432046495245532d534e4153204c41434954414d454854414d3b3141354431,
0x3b3b3b3b3b4e3b3b3b3b33343030203e746e6f663c3b4c3b303b754c3b43204c4154495041432046495245532d534e4153204c41434954414d454854414d3b3241354431,
0x3b3b3b3b3b4e3b3b3b3b34343030203e746e6f663c3b4c3b303b754c3b44204c4154495041432046495245532d534e4153204c41434954414d454854414d3b3341354431,
0x3b3b3b3b3b4e3b3b3b3b35343030203e746e6f663c3b4c3b303b754c3b45204c4154495041432046495245532d534e4153204c41434954414d454854414d3b3441354431,
0x3b3b3b3b3b4e3b3b3b3b36343030203e746e6f663c3b4c3b303b754c3b46204c4154495041432046495245532d534e4153204c41434954414d454854414d3b3541354431,
0x3b3b3b3b3b4e3b3b3b3b37343030203e746e6f663c3b4c3b303b754c3b47204c4154495041432046495245532d534e4153204c41434954414d454854414d3b3641354431,
0x3b3b3b3b3b4e3b3b3b3b38343030203e746e6f663c3b4c3b303b754c3b48204c4154495041432046495245532d534e4153204c41434954414d454854414d3b3741354431,
0x3b3b3b3b3b4e3b3b3b3b39343030203e746e6f663c3b4c3b303b754c3b49204c4154495041432046495245532d534e4153204c41434954414d454854414d3b3841354431,
0x3b3b3b3b3b4e3b3b3b3b41343030203e746e6f663c3b4c3b303b754c3b4a204c4154495041432046495245532d534e4153204c41434954414d454854414d3b3941354431,
0x3b3b3b3b3b4e3b3b3b3b42343030203e746e6f663c3b4c3b303b754c3b4b204c4154495041432046495245532d534e4153204c41434954414d454854414d3b4141354431,
0x3b3b3b3b3b4e3b3b3b3b43343030203e746e6f663c3b4c3b303b754c3b4c204c4154495041432046495245532d534e4153204c41434954414d454854414d3b4241354431,
0x3b3b3b3b3b4e3b3b3b3b44343030203e746e6f663c3b4c3b303b754c3b4d204c4154495041432046495245532d534e4153204c41434954414d454854414d3b4341354431,
0x3b3b3b3b3b4e3b3b3b3b45343030203e746e6f663c3b4c3b303b754c3b4e204c4154495041432046495245532d534e4153204c41434954414d454854414d3b4441354431,
0x3b3b3b3b3b4e3b3b3b3b46343030203e746e6f663c3b4c3b303b754c3b4f204c4154495041432046495245532d534e4153204c41434954414d454854414d3b4541354431,
0x3b3b3b3b3b4e3b3b3b3b30353030203e746e6f663c3b4c3b303b754c3b50204c4154495041432046495245532d534e4153204c41434954414d454854414d3b4641354431,
0x3b3b3b3b3b4e3b3b3b3b31353030203e746e6f663c3b4c3b303b754c3b51204c4154495041432046495245532d534e4153204c41434954414d454854414d3b3042354431,
0x3b3b3b3b3b4e3b3b3b3b32353030203e746e6f663c3b4c3b303b754c3b52204c4154495041432046495245532d534e4153204c41434954414d454854414d3b3142354431,
0x3b3b3b3b3b4e3b3b3b3b33353030203e746e6f663c3b4c3b303b754c3b53204c4154495041432046495245532d534e4153204c41434954414d454854414d3b3242354431,
0x3b3b3b3b3b4e3b3b3b3b34353030203e746e6f663c3b4c3b303b754c3b54204c4154495041432046495245532d534e4153204c41434954414d454854414d3b3342354431,
0x3b3b3b3b3b4e3b3b3b3b35353030203e746e6f663c3b4c3b303b754c3b55204c4154495041432046495245532d534e4153204c41434954414d454854414d3b3442354431,
0x3b3b3b3b3b4e3b3b3b3b36353030203e746e6f663c3b4c3b303b754c3b56204c4154495041432046495245532d534e4153204c41434954414d454854414d3b3542354431,
0x3b3b3b3b3b4e3b3b3b3b37353030203e746e6f663c3b4c3b303b754c3b57204c4154495041432046495245532d534e4153204c41434954414d454854414d3b3642354431,
0x3b3b3b3b3b4e3b3b3b3b38353030203e746e6f663c3b4c3b303b754c3b58204c4154495041432046495245532d534e4153204c41434954414d454854414d3b3742354431,
0x3b3b3b3b3b4e3b3b3b3b39353030203e746e6f663c3b4c3b303b754c3b59204c4154495041432046495245532d534e4153204c41434954414d454854414d3b3842354431,
0x3b3b3b3b3b4e3b3b3b3b41353030203e746e6f663c3b4c3b303b754c3b5a204c4154495041432046495245532d534e4153204c41434954414d454854414d3b3942354431,
0x3b3b3b3b3b4e3b3b3b3b31363030203e746e6f663c3b4c3b303b6c4c3b41204c4c414d532046495245532d534e4153204c41434954414d454854414d3b4142354431,
0x3b3b3b3b3b4e3b3b3b3b32363030203e746e6f663c3b4c3b303b6c4c3b42204c4c414d532046495245532d534e4153204c41434954414d454854414d3b4242354431,
0x3b3b3b3b3b4e3b3b3b3b33363030203e746e6f663c3b4c3b303b6c4c3b43204c4c414d532046495245532d534e4153204c41434954414d454854414d3b4342354431,
0x3b3b3b3b3b4e3b3b3b3b34363030203e746e6f663c3b4c3b303b6c4c3b44204c4c414d532046495245532d534e4153204c41434954414d454854414d3b4442354431,
0x3b3b3b3b3b4e3b3b3b3b35363030203e746e6f663c3b4c3b303b6c4c3b45204c4c414d532046495245532d534e4153204c41434954414d454854414d3b4542354431,
0x3b3b3b3b3b4e3b3b3b3b36363030203e746e6f663c3b4c3b303b6c4c3b46204c4c414d532046495245532d534e4153204c41434954414d454854414d3b4642354431,
0x3b3b3b3b3b4e3b3b3b3b37363030203e746e6f663c3b4c3b303b6c4c3b47204c4c414d532046495245532d534e4153204c41434954414d454854414d3b3043354431,
0x3b3b3b3b3b4e3b3b3b3b38363030203e746e6f663c3b4c3b303b6c4c3b48204c4c414d532046495245532d534e4153204c41434954414d454854414d3b3143354431,
0x3b3b3b3b3b4e3b3b3b3b39363030203e746e6f663c3b4c3b303b6c4c3b49204c4c414d532046495245532d534e4153204c41434954414d454854414d3b3243354431,
0x3b3b3b3b3b4e3b3b3b3b41363030203e746e6f663c3b4c3b303b6c4c3b4a204c4c414d532046495245532d534e4153204c41434954414d454854414d3b3343354431,
0x3b3b3b3b3b4e3b3b3b3b42363030203e746e6f663c3b4c3b303b6c4c3b4b204c4c414d532046495245532d534e4153204c41434954414d454854414d3b3443354431,
0x3b3b3b3b3b4e3b3b3b3b43363030203e746e6f663c3b4c3b303b6c4c3b4c204c4c414d532046495245532d534e4153204c41434954414d454854414d3b3543354431,
0x3b3b3b3b3b4e3b3b3b3b44363030203e746e6f663c3b4c3b303b6c4c3b4d204c4c414d532046495245532d534e4153204c41434954414d454854414d3b3643354431,
0x3b3b3b3b3b4e3b3b3b3b45363030203e746e6f663c3b4c3b303b6c4c3b4e204c4c414d532046495245532d534e4153204c41434954414d454854414d3b3743354431,
0x3b3b3b3b3b4e3b3b3b3b46363030203e746e6f663c3b4c3b303b6c4c3b4f204c4c414d532046495245532d534e4153204c41434954414d454854414d3b3843354431,
0x3b3b3b3b3b4e3b3b3b3b30373030203e746e6f663c3b4c3b303b6c4c3b50204c4c414d532046495245532d534e4153204c41434954414d454854414d3b3943354431,
0x3b3b3b3b3b4e3b3b3b3b31373030203e746e6f663c3b4c3b303b6c4c3b51204c4c414d532046495245532d534e4153204c41434954414d454854414d3b4143354431,
0x3b3b3b3b3b4e3b3b3b3b32373030203e746e6f663c3b4c3b303b6c4c3b52204c4c414d532046495245532d534e4153204c41434954414d454854414d3b4243354431,
0x3b3b3b3b3b4e3b3b3b3b33373030203e746e6f663c3b4c3b303b6c4c3b53204c4c414d532046495245532d534e4153204c41434954414d454854414d3b4343354431,
0x3b3b3b3b3b4e3b3b3b3b34373030203e746e6f663c3b4c3b303b6c4c3b54204c4c414d532046495245532d534e4153204c41434954414d454854414d3b4443354431,
0x3b3b3b3b3b4e3b3b3b3b35373030203e746e6f663c3b4c3b303b6c4c3b55204c4c414d532046495245532d534e4153204c41434954414d454854414d3b4543354431,
0x3b3b3b3b3b4e3b3b3b3b36373030203e746e6f663c3b4c3b303b6c4c3b56204c4c414d532046495245532d534e4153204c41434954414d454854414d3b4643354431,
0x3b3b3b3b3b4e3b3b3b3b37373030203e746e6f663c3b4c3b303b6c4c3b57204c4c414d532046495245532d534e4153204c41434954414d454854414d3b3044354431,
0x3b3b3b3b3b4e3b3b3b3b38373030203e746e6f663c3b4c3b303b6c4c3b58204c4c414d532046495245532d534e4153204c41434954414d454854414d3b3144354431,
0x3b3b3b3b3b4e3b3b3b3b39373030203e746e6f663c3b4c3b303b6c4c3b59204c4c414d532046495245532d534e4153204c41434954414d454854414d3b3244354431,
0x3b3b3b3b3b4e3b3b3b3b41373030203e746e6f663c3b4c3b303b6c4c3b5a204c4c414d532046495245532d534e4153204c41434954414d454854414d3b3344354431,
0x3b3b3b3b3b4e3b3b3b3b31343030203e746e6f663c3b4c3b303b754c3b41204c41544950414320444c4f422046495245532d534e4153204c41434954414d454854414d3b3444354431,
0x3b3b3b3b3b4e3b3b3b3b32343030203e746e6f663c3b4c3b303b754c3b42204c41544950414320444c4f422046495245532d534e4153204c41434954414d454854414d3b3544354431,
0x3b3b3b3b3b4e3b3b3b3b33343030203e746e6f663c3b4c3b303b754c3b43204c41544950414320444c4f422046495245532d534e4153204c41434954414d454854414d3b3644354431,
0x3b3b3b3b3b4e3b3b3b3b34343030203e746e6f663c3b4c3b303b754c3b44204c41544950414320444c4f422046495245532d534e4153204c41434954414d454854414d3b3744354431,
0x3b3b3b3b3b4e3b3b3b3b35343030203e746e6f663c3b4c3b303b754c3b45204c41544950414320444c4f422046495245532d534e4153204c41434954414d454854414d3b3844354431,
0x3b3b3b3b3b4e3b3b3b3b36343030203e746e6f663c3b4c3b303b754c3b46204c41544950414320444c4f422046495245532d534e4153204c41434954414d454854414d3b3944354431,
0x3b3b3b3b3b4e3b3b3b3b37343030203e746e6f663c3b4c3b303b754c3b47204c41544950414320444c4f422046495245532d534e4153204c41434954414d454854414d3b4144354431,
0x3b3b3b3b3b4e3b3b3b3b38343030203e746e6f663c3b4c3b303b754c3b48204c41544950414320444c4f422046495245532d534e4153204c41434954414d454854414d3b4244354431,
0x3b3b3b3b3b4e3b3b3b3b39343030203e746e6f663c3b4c3b303b754c3b49204c41544950414320444c4f422046495245532d534e4153204c41434954414d454854414d3b4344354431,
0x3b3b3b3b3b4e3b3b3b3b41343030203e746e6f663c3b4c3b303b754c3b4a204c41544950414320444c4f422046495245532d534e4153204c41434954414d454854414d3b4444354431,
0x3b3b3b3b3b4e3b3b3b3b42343030203e746e6f663c3b4c3b303b754c3b4b204c41544950414320444c4f422046495245532d534e4153204c41434954414d454854414d3b4544354431,
0x3b3b3b3b3b4e3b3b3b3b43343030203e746e6f663c3b4c3b303b754c3b4c204c41544950414320444c4f422046495245532d534e4153204c41434954414d454854414d3b4644354431,
0x3b3b3b3b3b4e3b3b3b3b44343030203e746e6f663c3b4c3b303b754c3b4d204c41544950414320444c4f422046495245532d534e4153204c41434954414d454854414d3b3045354431,
0x3b3b3b3b3b4e3b3b3b3b45343030203e746e6f663c3b4c3b303b754c3b4e204c41544950414320444c4f422046495245532d534e4153204c41434954414d454854414d3b3145354431,
0x3b3b3b3b3b4e3b3b3b3b46343030203e746e6f663c3b4c3b303b754c3b4f204c41544950414320444c4f422046495245532d534e4153204c41434954414d454854414d3b3245354431,
0x3b3b3b3b3b4e3b3b3b3b30353030203e746e6f663c3b4c3b303b754c3b50204c41544950414320444c4f422046495245532d534e4153204c41434954414d454854414d3b3345354431,
0x3b3b3b3b3b4e3b3b3b3b31353030203e746e6f663c3b4c3b303b754c3b51204c41544950414320444c4f422046495245532d534e4153204c41434954414d454854414d3b3445354431,
0x3b3b3b3b3b4e3b3b3b3b32353030203e746e6f663c3b4c3b303b754c3b52204c41544950414320444c4f422046495245532d534e4153204c41434954414d454854414d3b3545354431,
0x3b3b3b3b3b4e3b3b3b3b33353030203e746e6f663c3b4c3b303b754c3b53204c41544950414320444c4f422046495245532d534e4153204c41434954414d454854414d3b3645354431,
0x3b3b3b3b3b4e3b3b3b3b34353030203e746e6f663c3b4c3b303b754c3b54204c41544950414320444c4f422046495245532d534e4153204c41434954414d454854414d3b3745354431,
0x3b3b3b3b3b4e3b3b3b3b35353030203e746e6f663c3b4c3b303b754c3b55204c41544950414320444c4f422046495245532d534e4153204c41434954414d454854414d3b3845354431]

/-- src/u5e/props/UnicodeData.txt lines 26113-26368. -/
def rawUcd102 : List Nat := [
0x3b3b3b3b3b4e3b3b3b3b36353030203e746e6f663c3b4c3b303b754c3b56204c41544950414320444c4f422046495245532d534e4153204c41434954414d454854414d3b3945354431,
0x3b3b3b3b3b4e3b3b3b3b37353030203e746e6f663c3b4c3b303b754c3b57204c41544950414320444c4f422046495245532d534e4153204c41434954414d454854414d3b4145354431,
0x3b3b3b3b3b4e3b3b3b3b38353030203e746e6f663c3b4c3b303b754c3b58204c41544950414320444c4f422046495245532d534e4153204c41434954414d454854414d3b4245354431,
0x3b3b3b3b3b4e3b3b3b3b39353030203e746e6f663c3b4c3b303b754c3b59204c41544950414320444c4f422046495245532d534e4153204c41434954414d454854414d3b4345354431,
0x3b3b3b3b3b4e3b3b3b3b41353030203e746e6f663c3b4c3b303b754c3b5a204c41544950414320444c4f422046495245532d534e4153204c41434954414d454854414d3b4445354431,
0x3b3b3b3b3b4e3b3b3b3b31363030203e746e6f663c3b4c3b303b6c4c3b41204c4c414d5320444c4f422046495245532d534e4153204c41434954414d454854414d3b4545354431,
0x3b3b3b3b3b4e3b3b3b3b32363030203e746e6f663c3b4c3b303b6c4c3b42204c4c414d5320444c4f422046495245532d534e4153204c41434954414d454854414d3b4645354431,
0x3b3b3b3b3b4e3b3b3b3b33363030203e746e6f663c3b4c3b303b6c4c3b43204c4c414d5320444c4f422046495245532d534e4153204c41434954414d454854414d3b3046354431,
0x3b3b3b3b3b4e3b3b3b3b34363030203e746e6f663c3b4c3b303b6c4c3b44204c4c414d5320444c4f422046495245532d534e4153204c41434954414d454854414d3b3146354431,
0x3b3b3b3b3b4e3b3b3b3b35363030203e746e6f663c3b4c3b303b6c4c3b45204c4c414d5320444c4f422046495245532d534e4153204c41434954414d454854414d3b3246354431,
0x3b3b3b3b3b4e3b3b3b3b36363030203e746e6f663c3b4c3b303b6c4c3b46204c4c414d5320444c4f422046495245532d534e4153204c41434954414d454854414d3b3346354431,
0x3b3b3b3b3b4e3b3b3b3b37363030203e746e6f663c3b4c3b303b6c4c3b47204c4c414d5320444c4f422046495245532d534e4153204c41434954414d454854414d3b3446354431,
0x3b3b3b3b3b4e3b3b3b3b38363030203e746e6f663c3b4c3b303b6c4c3b48204c4c414d5320444c4f422046495245532d534e4153204c41434954414d454854414d3b3546354431,
0x3b3b3b3b3b4e3b3b3b3b39363030203e746e6f663c3b4c3b303b6c4c3b49204c4c414d5320444c4f422046495245532d534e4153204c41434954414d454854414d3b3646354431,
0x3b3b3b3b3b4e3b3b3b3b41363030203e746e6f663c3b4c3b303b6c4c3b4a204c4c414d5320444c4f422046495245532d534e4153204c41434954414d454854414d3b3746354431,
0x3b3b3b3b3b4e3b3b3b3b42363030203e746e6f663c3b4c3b303b6c4c3b4b204c4c414d5320444c4f422046495245532d534e4153204c41434954414d454854414d3b3846354431,
0x3b3b3b3b3b4e3b3b3b3b43363030203e746e6f663c3b4c3b303b6c4c3b4c204c4c414d5320444c4f422046495245532d534e4153204c41434954414d454854414d3b3946354431,
0x3b3b3b3b3b4e3b3b3b3b44363030203e746e6f663c3b4c3b303b6c4c3b4d204c4c414d5320444c4f422046495245532d534e4153204c41434954414d454854414d3b4146354431,
0x3b3b3b3b3b4e3b3b3b3b45363030203e746e6f663c3b4c3b303b6c4c3b4e204c4c414d5320444c4f422046495245532d534e4153204c41434954414d454854414d3b4246354431,
0x3b3b3b3b3b4e3b3b3b3b46363030203e746e6f663c3b4c3b303b6c4c3b4f204c4c414d5320444c4f422046495245532d534e4153204c41434954414d454854414d3b4346354431,
0x3b3b3b3b3b4e3b3b3b3b30373030203e746e6f663c3b4c3b303b6c4c3b50204c4c414d5320444c4f422046495245532d534e4153204c41434954414d454854414d3b4446354431,
0x3b3b3b3b3b4e3b3b3b3b31373030203e746e6f663c3b4c3b303b6c4c3b51204c4c414d5320444c4f422046495245532d534e4153204c41434954414d454854414d3b4546354431,
0x3b3b3b3b3b4e3b3b3b3b32373030203e746e6f663c3b4c3b303b6c4c3b52204c4c414d5320444c4f422046495245532d534e4153204c41434954414d454854414d3b4646354431,
0x3b3b3b3b3b4e3b3b3b3b33373030203e746e6f663c3b4c3b303b6c4c3b53204c4c414d5320444c4f422046495245532d534e4153204c41434954414d454854414d3b3030364431,
0x3b3b3b3b3b4e3b3b3b3b34373030203e746e6f663c3b4c3b303b6c4c3b54204c4c414d5320444c4f422046495245532d534e4153204c41434954414d454854414d3b3130364431,
0x3b3b3b3b3b4e3b3b3b3b35373030203e746e6f663c3b4c3b303b6c4c3b55204c4c414d5320444c4f422046495245532d534e4153204c41434954414d454854414d3b3230364431,
0x3b3b3b3b3b4e3b3b3b3b36373030203e746e6f663c3b4c3b303b6c4c3b56204c4c414d5320444c4f422046495245532d534e4153204c41434954414d454854414d3b3330364431,
0x3b3b3b3b3b4e3b3b3b3b37373030203e746e6f663c3b4c3b303b6c4c3b57204c4c414d5320444c4f422046495245532d534e4153204c41434954414d454854414d3b3430364431,
0x3b3b3b3b3b4e3b3b3b3b38373030203e746e6f663c3b4c3b303b6c4c3b58204c4c414d5320444c4f422046495245532d534e4153204c41434954414d454854414d3b3530364431,
0x3b3b3b3b3b4e3b3b3b3b39373030203e746e6f663c3b4c3b303b6c4c3b59204c4c414d5320444c4f422046495245532d534e4153204c41434954414d454854414d3b3630364431,
0x3b3b3b3b3b4e3b3b3b3b41373030203e746e6f663c3b4c3b303b6c4c3b5a204c4c414d5320444c4f422046495245532d534e4153204c41434954414d454854414d3b3730364431,
0x3b3b3b3b3b4e3b3b3b3b31343030203e746e6f663c3b4c3b303b754c3b41204c4154495041432043494c4154492046495245532d534e4153204c41434954414d454854414d3b3830364431,
0x3b3b3b3b3b4e3b3b3b3b32343030203e746e6f663c3b4c3b303b754c3b42204c4154495041432043494c4154492046495245532d534e4153204c41434954414d454854414d3b3930364431,
0x3b3b3b3b3b4e3b3b3b3b33343030203e746e6f663c3b4c3b303b754c3b43204c4154495041432043494c4154492046495245532d534e4153204c41434954414d454854414d3b4130364431,
0x3b3b3b3b3b4e3b3b3b3b34343030203e746e6f663c3b4c3b303b754c3b44204c4154495041432043494c4154492046495245532d534e4153204c41434954414d454854414d3b4230364431,
0x3b3b3b3b3b4e3b3b3b3b35343030203e746e6f663c3b4c3b303b754c3b45204c4154495041432043494c4154492046495245532d534e4153204c41434954414d454854414d3b4330364431,
0x3b3b3b3b3b4e3b3b3b3b36343030203e746e6f663c3b4c3b303b754c3b46204c4154495041432043494c4154492046495245532d534e4153204c41434954414d454854414d3b4430364431,
0x3b3b3b3b3b4e3b3b3b3b37343030203e746e6f663c3b4c3b303b754c3b47204c4154495041432043494c4154492046495245532d534e4153204c41434954414d454854414d3b4530364431,
0x3b3b3b3b3b4e3b3b3b3b38343030203e746e6f663c3b4c3b303b754c3b48204c4154495041432043494c4154492046495245532d534e4153204c41434954414d454854414d3b4630364431,
0x3b3b3b3b3b4e3b3b3b3b39343030203e746e6f663c3b4c3b303b754c3b49204c4154495041432043494c4154492046495245532d534e4153204c41434954414d454854414d3b3031364431,
0x3b3b3b3b3b4e3b3b3b3b41343030203e746e6f663c3b4c3b303b754c3b4a204c4154495041432043494c4154492046495245532d534e4153204c41434954414d454854414d3b3131364431,
0x3b3b3b3b3b4e3b3b3b3b42343030203e746e6f663c3b4c3b303b754c3b4b204c4154495041432043494c4154492046495245532d534e4153204c41434954414d454854414d3b3231364431,
0x3b3b3b3b3b4e3b3b3b3b43343030203e746e6f663c3b4c3b303b754c3b4c204c4154495041432043494c4154492046495245532d534e4153204c41434954414d454854414d3b3331364431,
0x3b3b3b3b3b4e3b3b3b3b44343030203e746e6f663c3b4c3b303b754c3b4d204c4154495041432043494c4154492046495245532d534e4153204c41434954414d454854414d3b3431364431,
0x3b3b3b3b3b4e3b3b3b3b45343030203e746e6f663c3b4c3b303b754c3b4e204c4154495041432043494c4154492046495245532d534e4153204c41434954414d454854414d3b3531364431,
0x3b3b3b3b3b4e3b3b3b3b46343030203e746e6f663c3b4c3b303b754c3b4f204c4154495041432043494c4154492046495245532d534e4153204c41434954414d454854414d3b3631364431,
0x3b3b3b3b3b4e3b3b3b3b30353030203e746e6f663c3b4c3b303b754c3b50204c4154495041432043494c4154492046495245532d534e4153204c41434954414d454854414d3b3731364431,
0x3b3b3b3b3b4e3b3b3b3b31353030203e746e6f663c3b4c3b303b754c3b51204c4154495041432043494c4154492046495245532d534e4153204c41434954414d454854414d3b3831364431,
0x3b3b3b3b3b4e3b3b3b3b32353030203e746e6f663c3b4c3b303b754c3b52204c4154495041432043494c4154492046495245532d534e4153204c41434954414d454854414d3b3931364431,
0x3b3b3b3b3b4e3b3b3b3b33353030203e746e6f663c3b4c3b303b754c3b53204c4154495041432043494c4154492046495245532d534e4153204c41434954414d454854414d3b4131364431,
0x3b3b3b3b3b4e3b3b3b3b34353030203e746e6f663c3b4c3b303b754c3b54204c4154495041432043494c4154492046495245532d534e4153204c41434954414d454854414d3b4231364431,
0x3b3b3b3b3b4e3b3b3b3b35353030203e746e6f663c3b4c3b303b754c3b55204c4154495041432043494c4154492046495245532d534e4153204c41434954414d454854414d3b4331364431,
0x3b3b3b3b3b4e3b3b3b3b36353030203e746e6f663c3b4c3b303b754c3b56204c4154495041432043494c4154492046495245532d534e4153204c41434954414d454854414d3b4431364431,
0x3b3b3b3b3b4e3b3b3b3b37353030203e746e6f663c3b4c3b303b754c3b57204c4154495041432043494c4154492046495245532d534e4153204c41434954414d454854414d3b4531364431,
0x3b3b3b3b3b4e3b3b3b3b38353030203e746e6f663c3b4c3b303b754c3b58204c4154495041432043494c4154492046495245532d534e4153204c41434954414d454854414d3b4631364431,
0x3b3b3b3b3b4e3b3b3b3b39353030203e746e6f663c3b4c3b303b754c3b59204c4154495041432043494c4154492046495245532d534e4153204c41434954414d454854414d3b3032364431,
0x3b3b3b3b3b4e3b3b3b3b41353030203e746e6f663c3b4c3b303b754c3b5a204c4154495041432043494c4154492046495245532d534e4153204c41434954414d454854414d3b3132364431,
0x3b3b3b3b3b4e3b3b3b3b31363030203e746e6f663c3b4c3b303b6c4c3b41204c4c414d532043494c4154492046495245532d534e4153204c41434954414d454854414d3b3232364431,
0x3b3b3b3b3b4e3b3b3b3b32363030203e746e6f663c3b4c3b303b6c4c3b42204c4c414d532043494c4154492046495245532d534e4153204c41434954414d454854414d3b3332364431,
0x3b3b3b3b3b4e3b3b3b3b33363030203e746e6f663c3b4c3b303b6c4c3b43204c4c414d532043494c4154492046495245532d534e4153204c41434954414d454854414d3b3432364431,
0x3b3b3b3b3b4e3b3b3b3b34363030203e746e6f663c3b4c3b303b6c4c3b44204c4c414d532043494c4154492046495245532d534e4153204c41434954414d454854414d3b3532364431,
0x3b3b3b3b3b4e3b3b3b3b35363030203e746e6f663c3b4c3b303b6c4c3b45204c4c414d532043494c4154492046495245532d534e4153204c41434954414d454854414d3b3632364431,
0x3b3b3b3b3b4e3b3b3b3b36363030203e746e6f663c3b4c3b303b6c4c3b46204c4c414d532043494c4154492046495245532d534e4153204c41434954414d454854414d3b3732364431,
0x3b3b3b3b3b4e3b3b3b3b37363030203e746e6f663c3b4c3b303b6c4c3b47204c4c414d532043494c4154492046495245532d534e4153204c41434954414d454854414d3b3832364431,
0x3b3b3b3b3b4e3b3b3b3b38363030203e746e6f663c3b4c3b303b6c4c3b48204c4c414d532043494c4154492046495245532d534e4153204c41434954414d454854414d3b3932364431,
0x3b3b3b3b3b4e3b3b3b3b39363030203e746e6f663c3b4c3b303b6c4c3b49204c4c414d532043494c4154492046495245532d534e4153204c41434954414d454854414d3b4132364431,
0x3b3b3b3b3b4e3b3b3b3b41363030203e746e6f663c3b4c3b303b6c4c3b4a204c4c414d532043494c4154492046495245532d534e4153204c41434954414d454854414d3b4232364431,
0x3b3b3b3b3b4e3b3b3b3b42363030203e746e6f663c3b4c3b303b6c4c3b4b204c4c414d532043494c4154492046495245532d534e4153204c41434954414d454854414d3b4332364431,
0x3b3b3b3b3b4e3b3b3b3b43363030203e746e6f663c3b4c3b303b6c4c3b4c204c4c414d532043494c4154492046495245532d534e4153204c41434954414d454854414d3b4432364431,
0x3b3b3b3b3b4e3b3b3b3b44363030203e746e6f663c3b4c3b303b6c4c3b4d204c4c414d532043494c4154492046495245532d534e4153204c41434954414d454854414d3b4532364431,
0x3b3b3b3b3b4e3b3b3b3b45363030203e746e6f663c3b4c3b303b6c4c3b4e204c4c414d532043494c4154492046495245532d534e4153204c41434954414d454854414d3b4632364431,
0x3b3b3b3b3b4e3b3b3b3b46363030203e746e6f663c3b4c3b303b6c4c3b4f204c4c414d532043494c4154492046495245532d534e4153204c41434954414d454854414d3b3033364431,
0x3b3b3b3b3b4e3b3b3b3b30373030203e746e6f663c3b4c3b303b6c4c3b50204c4c414d532043494c4154492046495245532d534e4153204c41434954414d454854414d3b3133364431,
0x3b3b3b3b3b4e3b3b3b3b31373030203e746e6f663c3b4c3b303b6c4c3b51204c4c414d532043494c4154492046495245532d534e4153204c41434954414d454854414d3b3233364431,
0x3b3b3b3b3b4e3b3b3b3b32373030203e746e6f663c3b4c3b303b6c4c3b52204c4c414d532043494c4154492046495245532d534e4153204c41434954414d454854414d3b3333364431,
0x3b3b3b3b3b4e3b3b3b3b33373030203e746e6f663c3b4c3b303b6c4c3b53204c4c414d532043494c4154492046495245532d534e4153204c41434954414d454854414d3b3433364431,
0x3b3b3b3b3b4e3b3b3b3b34373030203e746e6f663c3b4c3b303b6c4c3b54204c4c414d532043494c4154492046495245532d534e4153204c41434954414d454854414d3b3533364431,
0x3b3b3b3b3b4e3b3b3b3b35373030203e746e6f663c3b4c3b303b6c4c3b55204c4c414d532043494c4154492046495245532d534e4153204c41434954414d454854414d3b3633364431,
0x3b3b3b3b3b4e3b3b3b3b36373030203e746e6f663c3b4c3b303b6c4c3b56204c4c414d532043494c4154492046495245532d534e4153204c41434954414d454854414d3b3733364431,
0x3b3b3b3b3b4e3b3b3b3b37373030203e746e6f663c3b4c3b303b6c4c3b57204c4c414d532043494c4154492046495245532d534e4153204c41434954414d454854414d3b3833364431,
0x3b3b3b3b3b4e3b3b3b3b38373030203e746e6f663c3b4c3b303b6c4c3b58204c4c414d532043494c4154492046495245532d534e4153204c41434954414d454854414d3b3933364431,
0x3b3b3b3b3b4e3b3b3b3b39373030203e746e6f663c3b4c3b303b6c4c3b59204c4c414d532043494c4154492046495245532d534e4153204c41434954414d454854414d3b4133364431,
0x3b3b3b3b3b4e3b3b3b3b41373030203e746e6f663c3b4c3b303b6c4c3b5a204c4c414d532043494c4154492046495245532d534e4153204c41434954414d454854414d3b4233364431,
0x3b3b3b3b3b4e3b3b3b3b31343030203e746e6f663c3b4c3b303b754c3b41204c4154495041432043494c41544920444c4f422046495245532d534e4153204c41434954414d454854414d3b4333364431,
0x3b3b3b3b3b4e3b3b3b3b32343030203e746e6f663c3b4c3b303b754c3b42204c4154495041432043494c41544920444c4f422046495245532d534e4153204c41434954414d454854414d3b4433364431,
0x3b3b3b3b3b4e3b3b3b3b33343030203e746e6f663c3b4c3b303b754c3b43204c4154495041432043494c41544920444c4f422046495245532d534e4153204c41434954414d454854414d3b4533364431,
0x3b3b3b3b3b4e3b3b3b3b34343030203e746e6f663c3b4c3b303b754c3b44204c4154495041432043494c41544920444c4f422046495245532d534e4153204c41434954414d454854414d3b4633364431,
0x3b3b3b3b3b4e3b3b3b3b35343030203e746e6f663c3b4c3b303b754c3b45204c4154495041432043494c41544920444c4f422046495245532d534e4153204c41434954414d454854414d3b3034364431,
0x3b3b3b3b3b4e3b3b3b3b36343030203e746e6f663c3b4c3b303b754c3b46204c4154495041432043494c41544920444c4f422046495245532d534e4153204c41434954414d454854414d3b3134364431,
0x3b3b3b3b3b4e3b3b3b3b37343030203e746e6f663c3b4c3b303b754c3b47204c4154495041432043494c41544920444c4f422046495245532d534e4153204c41434954414d454854414d3b3234364431,
0x3b3b3b3b3b4e3b3b3b3b38343030203e746e6f663c3b4c3b303b754c3b48204c4154495041432043494c41544920444c4f422046495245532d534e4153204c41434954414d454854414d3b3334364431,
0x3b3b3b3b3b4e3b3b3b3b39343030203e746e6f663c3b4c3b303b754c3b49204c4154495041432043494c41544920444c4f422046495245532d534e4153204c41434954414d454854414d3b3434364431,
0x3b3b3b3b3b4e3b3b3b3b41343030203e746e6f663c3b4c3b303b754c3b4a204c4154495041432043494c41544920444c4f422046495245532d534e4153204c41434954414d454854414d3b3534364431,
0x3b3b3b3b3b4e3b3b3b3b42343030203e746e6f663c3b4c3b303b754c3b4b204c4154495041432043494c41544920444c4f422046495245532d534e4153204c41434954414d454854414d3b3634364431,
0x3b3b3b3b3b4e3b3b3b3b43343030203e746e6f663c3b4c3b303b754c3b4c204c4154495041432043494c41544920444c4f422046495245532d534e4153204c41434954414d454854414d3b3734364431,
0x3b3b3b3b3b4e3b3b3b3b44343030203e746e6f663c3b4c3b303b754c3b4d204c4154495041432043494c41544920444c4f422046495245532d534e4153204c41434954414d454854414d3b3834364431,
0x3b3b3b3b3b4e3b3b3b3b45343030203e746e6f663c3b4c3b303b754c3b4e204c4154495041432043494c41544920444c4f422046495245532d534e4153204c41434954414d454854414d3b3934364431,
0x3b3b3b3b3b4e3b3b3b3b46343030203e746e6f663c3b4c3b303b754c3b4f204c4154495041432043494c41544920444c4f422046495245532d534e4153204c41434954414d454854414d3b4134364431,
0x3b3b3b3b3b4e3b3b3b3b30353030203e746e6f663c3b4c3b303b754c3b50204c4154495041432043494c41544920444c4f422046495245532d534e4153204c41434954414d454854414d3b4234364431,
0x3b3b3b3b3b4e3b3b3b3b31353030203e746e6f663c3b4c3b303b754c3b51204c4154495041432043494c41544920444c4f422046495245532d534e4153204c41434954414d454854414d3b4334364431,
0x3b3b3b3b3b4e3b3b3b3b32353030203e746e6f663c3b4c3b303b754c3b52204c4154495041432043494c41544920444c4f422046495245532d534e4153204c41434954414d454854414d3b4434364431,
0x3b3b3b3b3b4e3b3b3b3b33353030203e746e6f663c3b4c3b303b754c3b53204c4154495041432043494c41544920444c4f422046495245532d534e4153204c41434954414d454854414d3b4534364431,
0x3b3b3b3b3b4e3b3b3b3b34353030203e746e6f663c3b4c3b303b754c3b54204c4154495041432043494c41544920444c4f422046495245532d534e4153204c41434954414d454854414d3b4634364431,
0x3b3b3b3b3b4e3b3b3b3b35353030203e746e6f663c3b4c3b303b754c3b55204c4154495041432043494c41544920444c4f422046495245532d534e4153204c41434954414d454854414d3b3035364431,
0x3b3b3b3b3b4e3b3b3b3b36353030203e746e6f663c3b4c3b303b754c3b56204c4154495041432043494c41544920444c4f422046495245532d534e4153204c41434954414d454854414d3b3135364431,
0x3b3b3b3b3b4e3b3b3b3b37353030203e746e6f663c3b4c3b303b754c3b57204c4154495041432043494c41544920444c4f422046495245532d534e4153204c41434954414d454854414d3b3235364431,
0x3b3b3b3b3b4e3b3b3b3b38353030203e746e6f663c3b4c3b303b754c3b58204c4154495041432043494c41544920444c4f422046495245532d534e4153204c41434954414d454854414d3b3335364431,
0x3b3b3b3b3b4e3b3b3b3b39353030203e746e6f663c3b4c3b303b754c3b59204c4154495041432043494c41544920444c4f422046495245532d534e4153204c41434954414d454854414d3b3435364431,
0x3b3b3b3b3b4e3b3b3b3b41353030203e746e6f663c3b4c3b303b754c3b5a204c4154495041432043494c41544920444c4f422046495245532d534e4153204c41434954414d454854414d3b3535364431,
0x3b3b3b3b3b4e3b3b3b3b31363030203e746e6f663c3b4c3b303b6c4c3b41204c4c414d532043494c41544920444c4f422046495245532d534e4153204c41434954414d454854414d3b3635364431,
0x3b3b3b3b3b4e3b3b3b3b32363030203e746e6f663c3b4c3b303b6c4c3b42204c4c414d532043494c41544920444c4f422046495245532d534e4153204c41434954414d454854414d3b3735364431,
0x3b3b3b3b3b4e3b3b3b3b33363030203e746e6f663c3b4c3b303b6c4c3b43204c4c414d532043494c41544920444c4f422046495245532d534e4153204c41434954414d454854414d3b3835364431,
0x3b3b3b3b3b4e3b3b3b3b34363030203e746e6f663c3b4c3b303b6c4c3b44204c4c414d532043494c41544920444c4f422046495245532d534e4153204c41434954414d454854414d3b3935364431,
0x3b3b3b3b3b4e3b3b3b3b35363030203e746e6f663c3b4c3b303b6c4c3b45204c4c414d532043494c41544920444c4f422046495245532d534e4153204c41434954414d454854414d3b4135364431,
0x3b3b3b3b3b4e3b3b3b3b36363030203e746e6f663c3b4c3b303b6c4c3b46204c4c414d532043494c41544920444c4f422046495245532d534e4153204c41434954414d454854414d3b4235364431,
0x3b3b3b3b3b4e3b3b3b3b37363030203e746e6f663c3b4c3b303b6c4c3b47204c4c414d532043494c41544920444c4f422046495245532d534e4153204c41434954414d454854414d3b4335364431,
0x3b3b3b3b3b4e3b3b3b3b38363030203e746e6f663c3b4c3b303b6c4c3b48204c4c414d532043494c41544920444c4f422046495245532d534e4153204c41434954414d454854414d3b4435364431,
0x3b3b3b3b3b4e3b3b3b3b39363030203e746e6f663c3b4c3b303b6c4c3b49204c4c414d532043494c41544920444c4f422046495245532d534e4153204c41434954414d454854414d3b4535364431,
0x3b3b3b3b3b4e3b3b3b3b41363030203e746e6f663c3b4c3b303b6c4c3b4a204c4c414d532043494c41544920444c4f422046495245532d534e4153204c41434954414d454854414d3b4635364431,
0x3b3b3b3b3b4e3b3b3b3b42363030203e746e6f663c3b4c3b303b6c4c3b4b204c4c414d532043494c41544920444c4f422046495245532d534e4153204c41434954414d454854414d3b3036364431,
0x3b3b3b3b3b4e3b3b3b3b43363030203e746e6f663c3b4c3b303b6c4c3b4c204c4c414d532043494c41544920444c4f422046495245532d534e4153204c41434954414d454854414d3b3136364431,
0x3b3b3b3b3b4e3b3b3b3b44363030203e746e6f663c3b4c3b303b6c4c3b4d204c4c414d532043494c41544920444c4f422046495245532d534e4153204c41434954414d454854414d3b3236364431,
0x3b3b3b3b3b4e3b3b3b3b45363030203e746e6f663c3b4c3b303b6c4c3b4e204c4c414d532043494c41544920444c4f422046495245532d534e4153204c41434954414d454854414d3b3336364431,
0x3b3b3b3b3b4e3b3b3b3b46363030203e746e6f663c3b4c3b303b6c4c3b4f204c4c414d532043494c41544920444c4f422046495245532d534e4153204c41434954414d454854414d3b3436364431,
0x3b3b3b3b3b4e3b3b3b3b30373030203e746e6f663c3b4c3b303b6c4c3b50204c4c414d532043494c41544920444c4f422046495245532d534e4153204c41434954414d454854414d3b3536364431,
0x3b3b3b3b3b4e3b3b3b3b31373030203e746e6f663c3b4c3b303b6c4c3b51204c4c414d532043494c41544920444c4f422046495245532d534e4153204c41434954414d454854414d3b3636364431,
0x3b3b3b3b3b4e3b3b3b3b32373030203e746e6f663c3b4c3b303b6c4c3b52204c4c414d532043494c41544920444c4f422046495245532d534e4153204c41434954414d454854414d3b3736364431,
0x3b3b3b3b3b4e3b3b3b3b33373030203e746e6f663c3b4c3b303b6c4c3b53204c4c414d532043494c41544920444c4f422046495245532d534e4153204c41434954414d454854414d3b3836364431,
0x3b3b3b3b3b4e3b3b3b3b34373030203e746e6f663c3b4c3b303b6c4c3b54204c4c414d532043494c41544920444c4f422046495245532d534e4153204c41434954414d454854414d3b3936364431,
0x3b3b3b3b3b4e3b3b3b3b35373030203e746e6f663c3b4c3b303b6c4c3b55204c4c414d532043494c41544920444c4f422046495245532d534e4153204c41434954414d454854414d3b4136364431,
0x3b3b3b3b3b4e3b3b3b3b36373030203e746e6f663c3b4c3b303b6c4c3b56204c4c414d532043494c41544920444c4f422046495245532d534e4153204c41434954414d454854414d3b4236364431,
0x3b3b3b3b3b4e3b3b3b3b37373030203e746e6f663c3b4c3b303b6c4c3b57204c4c414d532043494c41544920444c4f422046495245532d534e4153204c41434954414d454854414d3b4336364431,
0x3b3b3b3b3b4e3b3b3b3b38373030203e746e6f663c3b4c3b303b6c4c3b58204c4c414d532043494c41544920444c4f422046495245532d534e4153204c41434954414d454854414d3b4436364431,
0x3b3b3b3b3b4e3b3b3b3b39373030203e746e6f663c3b4c3b303b6c4c3b59204c4c414d532043494c41544920444c4f422046495245532d534e4153204c41434954414d454854414d3b4536364431,
0x3b3b3b3b3b4e3b3b3b3b41373030203e746e6f663c3b4c3b303b6c4c3b5a204c4c414d532043494c41544920444c4f422046495245532d534e4153204c41434954414d454854414d3b4636364431,
0x3b3b3b3b3b4e3b3b3b3b31343030203e746e6f663c3b4c3b303b754c3b41204c4154495041432045434150534f4e4f4d204c41434954414d454854414d3b3037364431,
0x3b3b3b3b3b4e3b3b3b3b32343030203e746e6f663c3b4c3b303b754c3b42204c4154495041432045434150534f4e4f4d204c41434954414d454854414d3b3137364431,
0x3b3b3b3b3b4e3b3b3b3b33343030203e746e6f663c3b4c3b303b754c3b43204c4154495041432045434150534f4e4f4d204c41434954414d454854414d3b3237364431,
0x3b3b3b3b3b4e3b3b3b3b34343030203e746e6f663c3b4c3b303b754c3b44204c4154495041432045434150534f4e4f4d204c41434954414d454854414d3b3337364431,
0x3b3b3b3b3b4e3b3b3b3b35343030203e746e6f663c3b4c3b303b754c3b45204c4154495041432045434150534f4e4f4d204c41434954414d454854414d3b3437364431,
0x3b3b3b3b3b4e3b3b3b3b36343030203e746e6f663c3b4c3b303b754c3b46204c4154495041432045434150534f4e4f4d204c41434954414d454854414d3b3537364431,
0x3b3b3b3b3b4e3b3b3b3b37343030203e746e6f663c3b4c3b303b754c3b47204c4154495041432045434150534f4e4f4d204c41434954414d454854414d3b3637364431,
0x3b3b3b3b3b4e3b3b3b3b38343030203e746e6f663c3b4c3b303b754c3b48204c4154495041432045434150534f4e4f4d204c41434954414d454854414d3b3737364431,
0x3b3b3b3b3b4e3b3b3b3b39343030203e746e6f663c3b4c3b303b754c3b49204c4154495041432045434150534f4e4f4d204c41434954414d454854414d3b3837364431,
0x3b3b3b3b3b4e3b3b3b3b41343030203e746e6f663c3b4c3b303b754c3b4a204c4154495041432045434150534f4e4f4d204c41434954414d454854414d3b3937364431,
0x3b3b3b3b3b4e3b3b3b3b42343030203e746e6f663c3b4c3b303b754c3b4b204c4154495041432045434150534f4e4f4d204c41434954414d454854414d3b4137364431,
0x3b3b3b3b3b4e3b3b3b3b43343030203e746e6f663c3b4c3b303b754c3b4c204c4154495041432045434150534f4e4f4d204c41434954414d454854414d3b4237364431,
0x3b3b3b3b3b4e3b3b3b3b44343030203e746e6f663c3b4c3b303b754c3b4d204c4154495041432045434150534f4e4f4d204c41434954414d454854414d3b4337364431,
0x3b3b3b3b3b4e3b3b3b3b45343030203e746e6f663c3b4c3b303b754c3b4e204c4154495041432045434150534f4e4f4d204c41434954414d454854414d3b4437364431,
0x3b3b3b3b3b4e3b3b3b3b46343030203e746e6f663c3b4c3b303b754c3b4f204c4154495041432045434150534f4e4f4d204c41434954414d454854414d3b4537364431,
0x3b3b3b3b3b4e3b3b3b3b30353030203e746e6f663c3b4c3b303b754c3b50204c4154495041432045434150534f4e4f4d204c41434954414d454854414d3b4637364431,
0x3b3b3b3b3b4e3b3b3b3b31353030203e746e6f663c3b4c3b303b754c3b51204c4154495041432045434150534f4e4f4d204c41434954414d454854414d3b3038364431,
0x3b3b3b3b3b4e3b3b3b3b32353030203e746e6f663c3b4c3b303b754c3b52204c4154495041432045434150534f4e4f4d204c41434954414d454854414d3b3138364431,
0x3b3b3b3b3b4e3b3b3b3b33353030203e746e6f663c3b4c3b303b754c3b53204c4154495041432045434150534f4e4f4d204c41434954414d454854414d3b3238364431,
0x3b3b3b3b3b4e3b3b3b3b34353030203e746e6f663c3b4c3b303b754c3b54204c4154495041432045434150534f4e4f4d204c41434954414d454854414d3b3338364431,
0x3b3b3b3b3b4e3b3b3b3b35353030203e746e6f663c3b4c3b303b754c3b55204c4154495041432045434150534f4e4f4d204c41434954414d454854414d3b3438364431,
0x3b3b3b3b3b4e3b3b3b3b36353030203e746e6f663c3b4c3b303b754c3b56204c4154495041432045434150534f4e4f4d204c41434954414d454854414d3b3538364431,
0x3b3b3b3b3b4e3b3b3b3b37353030203e746e6f663c3b4c3b303b754c3b57204c4154495041432045434150534f4e4f4d204c41434954414d454854414d3b3638364431,
0x3b3b3b3b3b4e3b3b3b3b38353030203e746e6f663c3b4c3b303b754c3b58204c4154495041432045434150534f4e4f4d204c41434954414d454854414d3b3738364431,
0x3b3b3b3b3b4e3b3b3b3b39353030203e746e6f663c3b4c3b303b754c3b59204c4154495041432045434150534f4e4f4d204c41434954414d454854414d3b3838364431,
0x3b3b3b3b3b4e3b3b3b3b41353030203e746e6f663c3b4c3b303b754c3b5a204c4154495041432045434150534f4e4f4d204c41434954414d454854414d3b3938364431,
0x3b3b3b3b3b4e3b3b3b3b31363030203e746e6f663c3b4c3b303b6c4c3b41204c4c414d532045434150534f4e4f4d204c41434954414d454854414d3b4138364431,
0x3b3b3b3b3b4e3b3b3b3b32363030203e746e6f663c3b4c3b303b6c4c3b42204c4c414d532045434150534f4e4f4d204c41434954414d454854414d3b4238364431,
0x3b3b3b3b3b4e3b3b3b3b33363030203e746e6f663c3b4c3b303b6c4c3b43204c4c414d532045434150534f4e4f4d204c41434954414d454854414d3b4338364431,
0x3b3b3b3b3b4e3b3b3b3b34363030203e746e6f663c3b4c3b303b6c4c3b44204c4c414d532045434150534f4e4f4d204c41434954414d454854414d3b4438364431,
0x3b3b3b3b3b4e3b3b3b3b35363030203e746e6f663c3b4c3b303b6c4c3b45204c4c414d532045434150534f4e4f4d204c41434954414d454854414d3b4538364431,
0x3b3b3b3b3b4e3b3b3b3b36363030203e746e6f663c3b4c3b303b6c4c3b46204c4c414d532045434150534f4e4f4d204c41434954414d454854414d3b4638364431,
0x3b3b3b3b3b4e3b3b3b3b37363030203e746e6f663c3b4c3b303b6c4c3b47204c4c414d532045434150534f4e4f4d204c41434954414d454854414d3b3039364431,
0x3b3b3b3b3b4e3b3b3b3b38363030203e746e6f663c3b4c3b303b6c4c3b48204c4c414d532045434150534f4e4f4d204c41434954414d454854414d3b3139364431,
0x3b3b3b3b3b4e3b3b3b3b39363030203e746e6f663c3b4c3b303b6c4c3b49204c4c414d532045434150534f4e4f4d204c41434954414d454854414d3b3239364431,
0x3b3b3b3b3b4e3b3b3b3b41363030203e746e6f663c3b4c3b303b6c4c3b4a204c4c414d532045434150534f4e4f4d204c41434954414d454854414d3b3339364431,
0x3b3b3b3b3b4e3b3b3b3b42363030203e746e6f663c3b4c3b303b6c4c3b4b204c4c414d532045434150534f4e4f4d204c41434954414d454854414d3b3439364431,
0x3b3b3b3b3b4e3b3b3b3b43363030203e746e6f663c3b4c3b303b6c4c3b4c204c4c414d532045434150534f4e4f4d204c41434954414d454854414d3b3539364431,
0x3b3b3b3b3b4e3b3b3b3b44363030203e746e6f663c3b4c3b303b6c4c3b4d204c4c414d532045434150534f4e4f4d204c41434954414d454854414d3b3639364431,
0x3b3b3b3b3b4e3b3b3b3b45363030203e746e6f663c3b4c3b303b6c4c3b4e204c4c414d532045434150534f4e4f4d204c41434954414d454854414d3b3739364431,
0x3b3b3b3b3b4e3b3b3b3b46363030203e746e6f663c3b4c3b303b6c4c3b4f204c4c414d532045434150534f4e4f4d204c41434954414d454854414d3b3839364431,
0x3b3b3b3b3b4e3b3b3b3b30373030203e746e6f663c3b4c3b303b6c4c3b50204c4c414d532045434150534f4e4f4d204c41434954414d454854414d3b3939364431,
0x3b3b3b3b3b4e3b3b3b3b31373030203e746e6f663c3b4c3b303b6c4c3b51204c4c414d532045434150534f4e4f4d204c41434954414d454854414d3b4139364431,
0x3b3b3b3b3b4e3b3b3b3b32373030203e746e6f663c3b4c3b303b6c4c3b52204c4c414d532045434150534f4e4f4d204c41434954414d454854414d3b4239364431,
0x3b3b3b3b3b4e3b3b3b3b33373030203e746e6f663c3b4c3b303b6c4c3b53204c4c414d532045434150534f4e4f4d204c41434954414d454854414d3b4339364431,
0x3b3b3b3b3b4e3b3b3b3b34373030203e746e6f663c3b4c3b303b6c4c3b54204c4c414d532045434150534f4e4f4d204c41434954414d454854414d3b4439364431,
0x3b3b3b3b3b4e3b3b3b3b35373030203e746e6f663c3b4c3b303b6c4c3b55204c4c414d532045434150534f4e4f4d204c41434954414d454854414d3b4539364431,
0x3b3b3b3b3b4e3b3b3b3b36373030203e746e6f663c3b4c3b303b6c4c3b56204c4c414d532045434150534f4e4f4d204c41434954414d454854414d3b4639364431,
0x3b3b3b3b3b4e3b3b3b3b37373030203e746e6f663c3b4c3b303b6c4c3b57204c4c414d532045434150534f4e4f4d204c41434954414d454854414d3b3041364431,
0x3b3b3b3b3b4e3b3b3b3b38373030203e746e6f663c3b4c3b303b6c4c3b58204c4c414d532045434150534f4e4f4d204c41434954414d454854414d3b3141364431,
0x3b3b3b3b3b4e3b3b3b3b39373030203e746e6f663c3b4c3b303b6c4c3b59204c4c414d532045434150534f4e4f4d204c41434954414d454854414d3b3241364431,
0x3b3b3b3b3b4e3b3b3b3b41373030203e746e6f663c3b4c3b303b6c4c3b5a204c4c414d532045434150534f4e4f4d204c41434954414d454854414d3b3341364431,
0x3b3b3b3b3b4e3b3b3b3b31333130203e746e6f663c3b4c3b303b6c4c3b49205353454c544f44204c4c414d532043494c415449204c41434954414d454854414d3b3441364431,
0x3b3b3b3b3b4e3b3b3b3b37333230203e746e6f663c3b4c3b303b6c4c3b4a205353454c544f44204c4c414d532043494c415449204c41434954414d454854414d3b3541364431,
0x3b3b3b3b3b4e3b3b3b3b31393330203e746e6f663c3b4c3b303b754c3b4148504c41204c41544950414320444c4f42204c41434954414d454854414d3b3841364431,
0x3b3b3b3b3b4e3b3b3b3b32393330203e746e6f663c3b4c3b303b754c3b41544542204c41544950414320444c4f42204c41434954414d454854414d3b3941364431,
0x3b3b3b3b3b4e3b3b3b3b33393330203e746e6f663c3b4c3b303b754c3b414d4d4147204c41544950414320444c4f42204c41434954414d454854414d3b4141364431,
0x3b3b3b3b3b4e3b3b3b3b34393330203e746e6f663c3b4c3b303b754c3b41544c4544204c41544950414320444c4f42204c41434954414d454854414d3b4241364431,
0x3b3b3b3b3b4e3b3b3b3b35393330203e746e6f663c3b4c3b303b754c3b4e4f4c49535045204c41544950414320444c4f42204c41434954414d454854414d3b4341364431,
0x3b3b3b3b3b4e3b3b3b3b36393330203e746e6f663c3b4c3b303b754c3b4154455a204c41544950414320444c4f42204c41434954414d454854414d3b4441364431,
0x3b3b3b3b3b4e3b3b3b3b37393330203e746e6f663c3b4c3b303b754c3b415445204c41544950414320444c4f42204c41434954414d454854414d3b4541364431,
0x3b3b3b3b3b4e3b3b3b3b38393330203e746e6f663c3b4c3b303b754c3b4154454854204c41544950414320444c4f42204c41434954414d454854414d3b4641364431,
0x3b3b3b3b3b4e3b3b3b3b39393330203e746e6f663c3b4c3b303b754c3b41544f49204c41544950414320444c4f42204c41434954414d454854414d3b3042364431,
0x3b3b3b3b3b4e3b3b3b3b41393330203e746e6f663c3b4c3b303b754c3b415050414b204c41544950414320444c4f42204c41434954414d454854414d3b3142364431,
0x3b3b3b3b3b4e3b3b3b3b42393330203e746e6f663c3b4c3b303b754c3b41444d414c204c41544950414320444c4f42204c41434954414d454854414d3b3242364431,
0x3b3b3b3b3b4e3b3b3b3b43393330203e746e6f663c3b4c3b303b754c3b554d204c41544950414320444c4f42204c41434954414d454854414d3b3342364431,
0x3b3b3b3b3b4e3b3b3b3b44393330203e746e6f663c3b4c3b303b754c3b554e204c41544950414320444c4f42204c41434954414d454854414d3b3442364431,
0x3b3b3b3b3b4e3b3b3b3b45393330203e746e6f663c3b4c3b303b754c3b4958204c41544950414320444c4f42204c41434954414d454854414d3b3542364431,
0x3b3b3b3b3b4e3b3b3b3b46393330203e746e6f663c3b4c3b303b754c3b4e4f5243494d4f204c41544950414320444c4f42204c41434954414d454854414d3b3642364431,
0x3b3b3b3b3b4e3b3b3b3b30413330203e746e6f663c3b4c3b303b754c3b4950204c41544950414320444c4f42204c41434954414d454854414d3b3742364431,
0x3b3b3b3b3b4e3b3b3b3b31413330203e746e6f663c3b4c3b303b754c3b4f4852204c41544950414320444c4f42204c41434954414d454854414d3b3842364431,
0x3b3b3b3b3b4e3b3b3b3b34463330203e746e6f663c3b4c3b303b754c3b4c4f424d5953204154454854204c41544950414320444c4f42204c41434954414d454854414d3b3942364431,
0x3b3b3b3b3b4e3b3b3b3b33413330203e746e6f663c3b4c3b303b754c3b414d474953204c41544950414320444c4f42204c41434954414d454854414d3b4142364431,
0x3b3b3b3b3b4e3b3b3b3b34413330203e746e6f663c3b4c3b303b754c3b554154204c41544950414320444c4f42204c41434954414d454854414d3b4242364431,
0x3b3b3b3b3b4e3b3b3b3b35413330203e746e6f663c3b4c3b303b754c3b4e4f4c49535055204c41544950414320444c4f42204c41434954414d454854414d3b4342364431,
0x3b3b3b3b3b4e3b3b3b3b36413330203e746e6f663c3b4c3b303b754c3b494850204c41544950414320444c4f42204c41434954414d454854414d3b4442364431,
0x3b3b3b3b3b4e3b3b3b3b37413330203e746e6f663c3b4c3b303b754c3b494843204c41544950414320444c4f42204c41434954414d454854414d3b4542364431,
0x3b3b3b3b3b4e3b3b3b3b38413330203e746e6f663c3b4c3b303b754c3b495350204c41544950414320444c4f42204c41434954414d454854414d3b4642364431,
0x3b3b3b3b3b4e3b3b3b3b39413330203e746e6f663c3b4c3b303b754c3b4147454d4f204c41544950414320444c4f42204c41434954414d454854414d3b3043364431,
0x3b3b3b3b3b4e3b3b3b3b37303232203e746e6f663c3b4c3b303b6d533b414c42414e20444c4f42204c41434954414d454854414d3b3143364431,
0x3b3b3b3b3b4e3b3b3b3b31423330203e746e6f663c3b4c3b303b6c4c3b4148504c41204c4c414d5320444c4f42204c41434954414d454854414d3b3243364431,
0x3b3b3b3b3b4e3b3b3b3b32423330203e746e6f663c3b4c3b303b6c4c3b41544542204c4c414d5320444c4f42204c41434954414d454854414d3b3343364431,
0x3b3b3b3b3b4e3b3b3b3b33423330203e746e6f663c3b4c3b303b6c4c3b414d4d4147204c4c414d5320444c4f42204c41434954414d454854414d3b3443364431,
0x3b3b3b3b3b4e3b3b3b3b34423330203e746e6f663c3b4c3b303b6c4c3b41544c4544204c4c414d5320444c4f42204c41434954414d454854414d3b3543364431,
0x3b3b3b3b3b4e3b3b3b3b35423330203e746e6f663c3b4c3b303b6c4c3b4e4f4c49535045204c4c414d5320444c4f42204c41434954414d454854414d3b3643364431,
0x3b3b3b3b3b4e3b3b3b3b36423330203e746e6f663c3b4c3b303b6c4c3b4154455a204c4c414d5320444c4f42204c41434954414d454854414d3b3743364431,
0x3b3b3b3b3b4e3b3b3b3b37423330203e746e6f663c3b4c3b303b6c4c3b415445204c4c414d5320444c4f42204c41434954414d454854414d3b3843364431,
0x3b3b3b3b3b4e3b3b3b3b38423330203e746e6f663c3b4c3b303b6c4c3b4154454854204c4c414d5320444c4f42204c41434954414d454854414d3b3943364431,
0x3b3b3b3b3b4e3b3b3b3b39423330203e746e6f663c3b4c3b303b6c4c3b41544f49204c4c414d5320444c4f42204c41434954414d454854414d3b4143364431,
0x3b3b3b3b3b4e3b3b3b3b41423330203e746e6f663c3b4c3b303b6c4c3b415050414b204c4c414d5320444c4f42204c41434954414d454854414d3b4243364431,
0x3b3b3b3b3b4e3b3b3b3b42423330203e746e6f663c3b4c3b303b6c4c3b41444d414c204c4c414d5320444c4f42204c41434954414d454854414d3b4343364431,
0x3b3b3b3b3b4e3b3b3b3b43423330203e746e6f663c3b4c3b303b6c4c3b554d204c4c414d5320444c4f42204c41434954414d454854414d3b4443364431,
0x3b3b3b3b3b4e3b3b3b3b44423330203e746e6f663c3b4c3b303b6c4c3b554e204c4c414d5320444c4f42204c41434954414d454854414d3b4543364431,
0x3b3b3b3b3b4e3b3b3b3b45423330203e746e6f663c3b4c3b303b6c4c3b4958204c4c414d5320444c4f42204c41434954414d454854414d3b4643364431,
0x3b3b3b3b3b4e3b3b3b3b46423330203e746e6f663c3b4c3b303b6c4c3b4e4f5243494d4f204c4c414d5320444c4f42204c41434954414d454854414d3b3044364431,
0x3b3b3b3b3b4e3b3b3b3b30433330203e746e6f663c3b4c3b303b6c4c3b4950204c4c414d5320444c4f42204c41434954414d454854414d3b3144364431,
0x3b3b3b3b3b4e3b3b3b3b31433330203e746e6f663c3b4c3b303b6c4c3b4f4852204c4c414d5320444c4f42204c41434954414d454854414d3b3244364431,
0x3b3b3b3b3b4e3b3b3b3b32433330203e746e6f663c3b4c3b303b6c4c3b414d474953204c414e4946204c4c414d5320444c4f42204c41434954414d454854414d3b3344364431,
0x3b3b3b3b3b4e3b3b3b3b33433330203e746e6f663c3b4c3b303b6c4c3b414d474953204c4c414d5320444c4f42204c41434954414d454854414d3b3444364431,
0x3b3b3b3b3b4e3b3b3b3b34433330203e746e6f663c3b4c3b303b6c4c3b554154204c4c414d5320444c4f42204c41434954414d454854414d3b3544364431,
0x3b3b3b3b3b4e3b3b3b3b35433330203e746e6f663c3b4c3b303b6c4c3b4e4f4c49535055204c4c414d5320444c4f42204c41434954414d454854414d3b3644364431,
0x3b3b3b3b3b4e3b3b3b3b36433330203e746e6f663c3b4c3b303b6c4c3b494850204c4c414d5320444c4f42204c41434954414d454854414d3b3744364431,
0x3b3b3b3b3b4e3b3b3b3b37433330203e746e6f663c3b4c3b303b6c4c3b494843204c4c414d5320444c4f42204c41434954414d454854414d3b3844364431,
0x3b3b3b3b3b4e3b3b3b3b38433330203e746e6f663c3b4c3b303b6c4c3b495350204c4c414d5320444c4f42204c41434954414d454854414d3b3944364431,
0x3b3b3b3b3b4e3b3b3b3b39433330203e746e6f663c3b4c3b303b6c4c3b4147454d4f204c4c414d5320444c4f42204c41434954414d454854414d3b4144364431,
0x3b3b3b3b3b593b3b3b3b32303232203e746e6f663c3b4e4f3b303b6d533b4c4149544e45524546464944204c41495452415020444c4f42204c41434954414d454854414d3b4244364431,
0x3b3b3b3b3b4e3b3b3b3b35463330203e746e6f663c3b4c3b303b6c4c3b4c4f424d5953204e4f4c4953504520444c4f42204c41434954414d454854414d3b4344364431,
0x3b3b3b3b3b4e3b3b3b3b31443330203e746e6f663c3b4c3b303b6c4c3b4c4f424d595320415445485420444c4f42204c41434954414d454854414d3b4444364431,
0x3b3b3b3b3b4e3b3b3b3b30463330203e746e6f663c3b4c3b303b6c4c3b4c4f424d595320415050414b20444c4f42204c41434954414d454854414d3b4544364431,
0x3b3b3b3b3b4e3b3b3b3b35443330203e746e6f663c3b4c3b303b6c4c3b4c4f424d59532049485020444c4f42204c41434954414d454854414d3b4644364431,
0x3b3b3b3b3b4e3b3b3b3b31463330203e746e6f663c3b4c3b303b6c4c3b4c4f424d5953204f485220444c4f42204c41434954414d454854414d3b3045364431,
0x3b3b3b3b3b4e3b3b3b3b36443330203e746e6f663c3b4c3b303b6c4c3b4c4f424d595320495020444c4f42204c41434954414d454854414d3b3145364431,
0x3b3b3b3b3b4e3b3b3b3b31393330203e746e6f663c3b4c3b303b754c3b4148504c41204c4154495041432043494c415449204c41434954414d454854414d3b3245364431,
0x3b3b3b3b3b4e3b3b3b3b32393330203e746e6f663c3b4c3b303b754c3b41544542204c4154495041432043494c415449204c41434954414d454854414d3b3345364431,
0x3b3b3b3b3b4e3b3b3b3b33393330203e746e6f663c3b4c3b303b754c3b414d4d4147204c4154495041432043494c415449204c41434954414d454854414d3b3445364431,
0x3b3b3b3b3b4e3b3b3b3b34393330203e746e6f663c3b4c3b303b754c3b41544c4544204c4154495041432043494c415449204c41434954414d454854414d3b3545364431,
0x3b3b3b3b3b4e3b3b3b3b35393330203e746e6f663c3b4c3b303b754c3b4e4f4c49535045204c4154495041432043494c415449204c41434954414d454854414d3b3645364431,
0x3b3b3b3b3b4e3b3b3b3b36393330203e746e6f663c3b4c3b303b754c3b4154455a204c4154495041432043494c415449204c41434954414d454854414d3b3745364431,
0x3b3b3b3b3b4e3b3b3b3b37393330203e746e6f663c3b4c3b303b754c3b415445204c4154495041432043494c415449204c41434954414d454854414d3b3845364431,
0x3b3b3b3b3b4e3b3b3b3b38393330203e746e6f663c3b4c3b303b754c3b4154454854204c4154495041432043494c415449204c41434954414d454854414d3b3945364431,
0x3b3b3b3b3b4e3b3b3b3b39393330203e746e6f663c3b4c3b303b754c3b41544f49204c4154495041432043494c415449204c41434954414d454854414d3b4145364431]

/-- src/u5e/props/UnicodeData.txt lines 26369-26624. -/
def rawUcd103 : List Nat := [
0x3b3b3b3b3b4e3b3b3b3b41393330203e746e6f663c3b4c3b303b754c3b415050414b204c4154495041432043494c415449204c41434954414d454854414d3b4245364431,
0x3b3b3b3b3b4e3b3b3b3b42393330203e746e6f663c3b4c3b303b754c3b41444d414c204c4154495041432043494c415449204c41434954414d454854414d3b4345364431,
0x3b3b3b3b3b4e3b3b3b3b43393330203e746e6f663c3b4c3b303b754c3b554d204c4154495041432043494c415449204c41434954414d454854414d3b4445364431,
0x3b3b3b3b3b4e3b3b3b3b44393330203e746e6f663c3b4c3b303b754c3b554e204c4154495041432043494c415449204c41434954414d454854414d3b4545364431,
0x3b3b3b3b3b4e3b3b3b3b45393330203e746e6f663c3b4c3b303b754c3b4958204c4154495041432043494c415449204c41434954414d454854414d3b4645364431,
0x3b3b3b3b3b4e3b3b3b3b46393330203e746e6f663c3b4c3b303b754c3b4e4f5243494d4f204c4154495041432043494c415449204c41434954414d454854414d3b3046364431,
0x3b3b3b3b3b4e3b3b3b3b30413330203e746e6f663c3b4c3b303b754c3b4950204c4154495041432043494c415449204c41434954414d454854414d3b3146364431,
0x3b3b3b3b3b4e3b3b3b3b31413330203e746e6f663c3b4c3b303b754c3b4f4852204c4154495041432043494c415449204c41434954414d454854414d3b3246364431,
0x3b3b3b3b3b4e3b3b3b3b34463330203e746e6f663c3b4c3b303b754c3b4c4f424d5953204154454854204c4154495041432043494c415449204c41434954414d454854414d3b3346364431,
0x3b3b3b3b3b4e3b3b3b3b33413330203e746e6f663c3b4c3b303b754c3b414d474953204c4154495041432043494c415449204c41434954414d454854414d3b3446364431,
0x3b3b3b3b3b4e3b3b3b3b34413330203e746e6f663c3b4c3b303b754c3b554154204c4154495041432043494c415449204c41434954414d454854414d3b3546364431,
0x3b3b3b3b3b4e3b3b3b3b35413330203e746e6f663c3b4c3b303b754c3b4e4f4c49535055204c4154495041432043494c415449204c41434954414d454854414d3b3646364431,
0x3b3b3b3b3b4e3b3b3b3b36413330203e746e6f663c3b4c3b303b754c3b494850204c4154495041432043494c415449204c41434954414d454854414d3b3746364431,
0x3b3b3b3b3b4e3b3b3b3b37413330203e746e6f663c3b4c3b303b754c3b494843204c4154495041432043494c415449204c41434954414d454854414d3b3846364431,
0x3b3b3b3b3b4e3b3b3b3b38413330203e746e6f663c3b4c3b303b754c3b495350204c4154495041432043494c415449204c41434954414d454854414d3b3946364431,
0x3b3b3b3b3b4e3b3b3b3b39413330203e746e6f663c3b4c3b303b754c3b4147454d4f204c4154495041432043494c415449204c41434954414d454854414d3b4146364431,
0x3b3b3b3b3b4e3b3b3b3b37303232203e746e6f663c3b4c3b303b6d533b414c42414e2043494c415449204c41434954414d454854414d3b4246364431,
0x3b3b3b3b3b4e3b3b3b3b31423330203e746e6f663c3b4c3b303b6c4c3b4148504c41204c4c414d532043494c415449204c41434954414d454854414d3b4346364431,
0x3b3b3b3b3b4e3b3b3b3b32423330203e746e6f663c3b4c3b303b6c4c3b41544542204c4c414d532043494c415449204c41434954414d454854414d3b4446364431,
0x3b3b3b3b3b4e3b3b3b3b33423330203e746e6f663c3b4c3b303b6c4c3b414d4d4147204c4c414d532043494c415449204c41434954414d454854414d3b4546364431,
0x3b3b3b3b3b4e3b3b3b3b34423330203e746e6f663c3b4c3b303b6c4c3b41544c4544204c4c414d532043494c415449204c41434954414d454854414d3b4646364431,
0x3b3b3b3b3b4e3b3b3b3b35423330203e746e6f663c3b4c3b303b6c4c3b4e4f4c49535045204c4c414d532043494c415449204c41434954414d454854414d3b3030374431,
0x3b3b3b3b3b4e3b3b3b3b36423330203e746e6f663c3b4c3b303b6c4c3b4154455a204c4c414d532043494c415449204c41434954414d454854414d3b3130374431,
0x3b3b3b3b3b4e3b3b3b3b37423330203e746e6f663c3b4c3b303b6c4c3b415445204c4c414d532043494c415449204c41434954414d454854414d3b3230374431,
0x3b3b3b3b3b4e3b3b3b3b38423330203e746e6f663c3b4c3b303b6c4c3b4154454854204c4c414d532043494c415449204c41434954414d454854414d3b3330374431,
0x3b3b3b3b3b4e3b3b3b3b39423330203e746e6f663c3b4c3b303b6c4c3b41544f49204c4c414d532043494c415449204c41434954414d454854414d3b3430374431,
0x3b3b3b3b3b4e3b3b3b3b41423330203e746e6f663c3b4c3b303b6c4c3b415050414b204c4c414d532043494c415449204c41434954414d454854414d3b3530374431,
0x3b3b3b3b3b4e3b3b3b3b42423330203e746e6f663c3b4c3b303b6c4c3b41444d414c204c4c414d532043494c415449204c41434954414d454854414d3b3630374431,
0x3b3b3b3b3b4e3b3b3b3b43423330203e746e6f663c3b4c3b303b6c4c3b554d204c4c414d532043494c415449204c41434954414d454854414d3b3730374431,
0x3b3b3b3b3b4e3b3b3b3b44423330203e746e6f663c3b4c3b303b6c4c3b554e204c4c414d532043494c415449204c41434954414d454854414d3b3830374431,
0x3b3b3b3b3b4e3b3b3b3b45423330203e746e6f663c3b4c3b303b6c4c3b4958204c4c414d532043494c415449204c41434954414d454854414d3b3930374431,
0x3b3b3b3b3b4e3b3b3b3b46423330203e746e6f663c3b4c3b303b6c4c3b4e4f5243494d4f204c4c414d532043494c415449204c41434954414d454854414d3b4130374431,
0x3b3b3b3b3b4e3b3b3b3b30433330203e746e6f663c3b4c3b303b6c4c3b4950204c4c414d532043494c415449204c41434954414d454854414d3b4230374431,
0x3b3b3b3b3b4e3b3b3b3b31433330203e746e6f663c3b4c3b303b6c4c3b4f4852204c4c414d532043494c415449204c41434954414d454854414d3b4330374431,
0x3b3b3b3b3b4e3b3b3b3b32433330203e746e6f663c3b4c3b303b6c4c3b414d474953204c414e4946204c4c414d532043494c415449204c41434954414d454854414d3b4430374431,
0x3b3b3b3b3b4e3b3b3b3b33433330203e746e6f663c3b4c3b303b6c4c3b414d474953204c4c414d532043494c415449204c41434954414d454854414d3b4530374431,
0x3b3b3b3b3b4e3b3b3b3b34433330203e746e6f663c3b4c3b303b6c4c3b554154204c4c414d532043494c415449204c41434954414d454854414d3b4630374431,
0x3b3b3b3b3b4e3b3b3b3b35433330203e746e6f663c3b4c3b303b6c4c3b4e4f4c49535055204c4c414d532043494c415449204c41434954414d454854414d3b3031374431,
0x3b3b3b3b3b4e3b3b3b3b36433330203e746e6f663c3b4c3b303b6c4c3b494850204c4c414d532043494c415449204c41434954414d454854414d3b3131374431,
0x3b3b3b3b3b4e3b3b3b3b37433330203e746e6f663c3b4c3b303b6c4c3b494843204c4c414d532043494c415449204c41434954414d454854414d3b3231374431,
0x3b3b3b3b3b4e3b3b3b3b38433330203e746e6f663c3b4c3b303b6c4c3b495350204c4c414d532043494c415449204c41434954414d454854414d3b3331374431,
0x3b3b3b3b3b4e3b3b3b3b39433330203e746e6f663c3b4c3b303b6c4c3b4147454d4f204c4c414d532043494c415449204c41434954414d454854414d3b3431374431,
0x3b3b3b3b3b593b3b3b3b32303232203e746e6f663c3b4e4f3b303b6d533b4c4149544e45524546464944204c4149545241502043494c415449204c41434954414d454854414d3b3531374431,
0x3b3b3b3b3b4e3b3b3b3b35463330203e746e6f663c3b4c3b303b6c4c3b4c4f424d5953204e4f4c495350452043494c415449204c41434954414d454854414d3b3631374431,
0x3b3b3b3b3b4e3b3b3b3b31443330203e746e6f663c3b4c3b303b6c4c3b4c4f424d59532041544548542043494c415449204c41434954414d454854414d3b3731374431,
0x3b3b3b3b3b4e3b3b3b3b30463330203e746e6f663c3b4c3b303b6c4c3b4c4f424d595320415050414b2043494c415449204c41434954414d454854414d3b3831374431,
0x3b3b3b3b3b4e3b3b3b3b35443330203e746e6f663c3b4c3b303b6c4c3b4c4f424d5953204948502043494c415449204c41434954414d454854414d3b3931374431,
0x3b3b3b3b3b4e3b3b3b3b31463330203e746e6f663c3b4c3b303b6c4c3b4c4f424d5953204f48522043494c415449204c41434954414d454854414d3b4131374431,
0x3b3b3b3b3b4e3b3b3b3b36443330203e746e6f663c3b4c3b303b6c4c3b4c4f424d59532049502043494c415449204c41434954414d454854414d3b4231374431,
0x3b3b3b3b3b4e3b3b3b3b31393330203e746e6f663c3b4c3b303b754c3b4148504c41204c4154495041432043494c41544920444c4f42204c41434954414d454854414d3b4331374431,
0x3b3b3b3b3b4e3b3b3b3b32393330203e746e6f663c3b4c3b303b754c3b41544542204c4154495041432043494c41544920444c4f42204c41434954414d454854414d3b4431374431,
0x3b3b3b3b3b4e3b3b3b3b33393330203e746e6f663c3b4c3b303b754c3b414d4d4147204c4154495041432043494c41544920444c4f42204c41434954414d454854414d3b4531374431,
0x3b3b3b3b3b4e3b3b3b3b34393330203e746e6f663c3b4c3b303b754c3b41544c4544204c4154495041432043494c41544920444c4f42204c41434954414d454854414d3b4631374431,
0x3b3b3b3b3b4e3b3b3b3b35393330203e746e6f663c3b4c3b303b754c3b4e4f4c49535045204c4154495041432043494c41544920444c4f42204c41434954414d454854414d3b3032374431,
0x3b3b3b3b3b4e3b3b3b3b36393330203e746e6f663c3b4c3b303b754c3b4154455a204c4154495041432043494c41544920444c4f42204c41434954414d454854414d3b3132374431,
0x3b3b3b3b3b4e3b3b3b3b37393330203e746e6f663c3b4c3b303b754c3b415445204c4154495041432043494c41544920444c4f42204c41434954414d454854414d3b3232374431,
0x3b3b3b3b3b4e3b3b3b3b38393330203e746e6f663c3b4c3b303b754c3b4154454854204c4154495041432043494c41544920444c4f42204c41434954414d454854414d3b3332374431,
0x3b3b3b3b3b4e3b3b3b3b39393330203e746e6f663c3b4c3b303b754c3b41544f49204c4154495041432043494c41544920444c4f42204c41434954414d454854414d3b3432374431,
0x3b3b3b3b3b4e3b3b3b3b41393330203e746e6f663c3b4c3b303b754c3b415050414b204c4154495041432043494c41544920444c4f42204c41434954414d454854414d3b3532374431,
0x3b3b3b3b3b4e3b3b3b3b42393330203e746e6f663c3b4c3b303b754c3b41444d414c204c4154495041432043494c41544920444c4f42204c41434954414d454854414d3b3632374431,
0x3b3b3b3b3b4e3b3b3b3b43393330203e746e6f663c3b4c3b303b754c3b554d204c4154495041432043494c41544920444c4f42204c41434954414d454854414d3b3732374431,
0x3b3b3b3b3b4e3b3b3b3b44393330203e746e6f663c3b4c3b303b754c3b554e204c4154495041432043494c41544920444c4f42204c41434954414d454854414d3b3832374431,
0x3b3b3b3b3b4e3b3b3b3b45393330203e746e6f663c3b4c3b303b754c3b4958204c4154495041432043494c41544920444c4f42204c41434954414d454854414d3b3932374431,
0x3b3b3b3b3b4e3b3b3b3b46393330203e746e6f663c3b4c3b303b754c3b4e4f5243494d4f204c4154495041432043494c41544920444c4f42204c41434954414d454854414d3b4132374431,
0x3b3b3b3b3b4e3b3b3b3b30413330203e746e6f663c3b4c3b303b754c3b4950204c4154495041432043494c41544920444c4f42204c41434954414d454854414d3b4232374431,
0x3b3b3b3b3b4e3b3b3b3b31413330203e746e6f663c3b4c3b303b754c3b4f4852204c4154495041432043494c41544920444c4f42204c41434954414d454854414d3b4332374431,
0x3b3b3b3b3b4e3b3b3b3b34463330203e746e6f663c3b4c3b303b754c3b4c4f424d5953204154454854204c4154495041432043494c41544920444c4f42204c41434954414d454854414d3b4432374431,
0x3b3b3b3b3b4e3b3b3b3b33413330203e746e6f663c3b4c3b303b754c3b414d474953204c4154495041432043494c41544920444c4f42204c41434954414d454854414d3b4532374431,
0x3b3b3b3b3b4e3b3b3b3b34413330203e746e6f663c3b4c3b303b754c3b554154204c4154495041432043494c41544920444c4f42204c41434954414d454854414d3b4632374431,
0x3b3b3b3b3b4e3b3b3b3b35413330203e746e6f663c3b4c3b303b754c3b4e4f4c49535055204c4154495041432043494c41544920444c4f42204c41434954414d454854414d3b3033374431,
0x3b3b3b3b3b4e3b3b3b3b36413330203e746e6f663c3b4c3b303b754c3b494850204c4154495041432043494c41544920444c4f42204c41434954414d454854414d3b3133374431,
0x3b3b3b3b3b4e3b3b3b3b37413330203e746e6f663c3b4c3b303b754c3b494843204c4154495041432043494c41544920444c4f42204c41434954414d454854414d3b3233374431,
0x3b3b3b3b3b4e3b3b3b3b38413330203e746e6f663c3b4c3b303b754c3b495350204c4154495041432043494c41544920444c4f42204c41434954414d454854414d3b3333374431,
0x3b3b3b3b3b4e3b3b3b3b39413330203e746e6f663c3b4c3b303b754c3b4147454d4f204c4154495041432043494c41544920444c4f42204c41434954414d454854414d3b3433374431,
0x3b3b3b3b3b4e3b3b3b3b37303232203e746e6f663c3b4c3b303b6d533b414c42414e2043494c41544920444c4f42204c41434954414d454854414d3b3533374431,
0x3b3b3b3b3b4e3b3b3b3b31423330203e746e6f663c3b4c3b303b6c4c3b4148504c41204c4c414d532043494c41544920444c4f42204c41434954414d454854414d3b3633374431,
0x3b3b3b3b3b4e3b3b3b3b32423330203e746e6f663c3b4c3b303b6c4c3b41544542204c4c414d532043494c41544920444c4f42204c41434954414d454854414d3b3733374431,
0x3b3b3b3b3b4e3b3b3b3b33423330203e746e6f663c3b4c3b303b6c4c3b414d4d4147204c4c414d532043494c41544920444c4f42204c41434954414d454854414d3b3833374431,
0x3b3b3b3b3b4e3b3b3b3b34423330203e746e6f663c3b4c3b303b6c4c3b41544c4544204c4c414d532043494c41544920444c4f42204c41434954414d454854414d3b3933374431,
0x3b3b3b3b3b4e3b3b3b3b35423330203e746e6f663c3b4c3b303b6c4c3b4e4f4c49535045204c4c414d532043494c41544920444c4f42204c41434954414d454854414d3b4133374431,
0x3b3b3b3b3b4e3b3b3b3b36423330203e746e6f663c3b4c3b303b6c4c3b4154455a204c4c414d532043494c41544920444c4f42204c41434954414d454854414d3b4233374431,
0x3b3b3b3b3b4e3b3b3b3b37423330203e746e6f663c3b4c3b303b6c4c3b415445204c4c414d532043494c41544920444c4f42204c41434954414d454854414d3b4333374431,
0x3b3b3b3b3b4e3b3b3b3b38423330203e746e6f663c3b4c3b303b6c4c3b4154454854204c4c414d532043494c41544920444c4f42204c41434954414d454854414d3b4433374431,
0x3b3b3b3b3b4e3b3b3b3b39423330203e746e6f663c3b4c3b303b6c4c3b41544f49204c4c414d532043494c41544920444c4f42204c41434954414d454854414d3b4533374431,
0x3b3b3b3b3b4e3b3b3b3b41423330203e746e6f663c3b4c3b303b6c4c3b415050414b204c4c414d532043494c41544920444c4f42204c41434954414d454854414d3b4633374431,
0x3b3b3b3b3b4e3b3b3b3b42423330203e746e6f663c3b4c3b303b6c4c3b41444d414c204c4c414d532043494c41544920444c4f42204c41434954414d454854414d3b3034374431,
0x3b3b3b3b3b4e3b3b3b3b43423330203e746e6f663c3b4c3b303b6c4c3b554d204c4c414d532043494c41544920444c4f42204c41434954414d454854414d3b3134374431,
0x3b3b3b3b3b4e3b3b3b3b44423330203e746e6f663c3b4c3b303b6c4c3b554e204c4c414d532043494c41544920444c4f42204c41434954414d454854414d3b3234374431,
0x3b3b3b3b3b4e3b3b3b3b45423330203e746e6f663c3b4c3b303b6c4c3b4958204c4c414d532043494c41544920444c4f42204c41434954414d454854414d3b3334374431,
0x3b3b3b3b3b4e3b3b3b3b46423330203e746e6f663c3b4c3b303b6c4c3b4e4f5243494d4f204c4c414d532043494c41544920444c4f42204c41434954414d454854414d3b3434374431,
0x3b3b3b3b3b4e3b3b3b3b30433330203e746e6f663c3b4c3b303b6c4c3b4950204c4c414d532043494c41544920444c4f42204c41434954414d454854414d3b3534374431,
0x3b3b3b3b3b4e3b3b3b3b31433330203e746e6f663c3b4c3b303b6c4c3b4f4852204c4c414d532043494c41544920444c4f42204c41434954414d454854414d3b3634374431,
0x3b3b3b3b3b4e3b3b3b3b32433330203e746e6f663c3b4c3b303b6c4c3b414d474953204c414e4946204c4c414d532043494c41544920444c4f42204c41434954414d454854414d3b3734374431,
0x3b3b3b3b3b4e3b3b3b3b33433330203e746e6f663c3b4c3b303b6c4c3b414d474953204c4c414d532043494c41544920444c4f42204c41434954414d454854414d3b3834374431,
0x3b3b3b3b3b4e3b3b3b3b34433330203e746e6f663c3b4c3b303b6c4c3b554154204c4c414d532043494c41544920444c4f42204c41434954414d454854414d3b3934374431,
0x3b3b3b3b3b4e3b3b3b3b35433330203e746e6f663c3b4c3b303b6c4c3b4e4f4c49535055204c4c414d532043494c41544920444c4f42204c41434954414d454854414d3b4134374431,
0x3b3b3b3b3b4e3b3b3b3b36433330203e746e6f663c3b4c3b303b6c4c3b494850204c4c414d532043494c41544920444c4f42204c41434954414d454854414d3b4234374431,
0x3b3b3b3b3b4e3b3b3b3b37433330203e746e6f663c3b4c3b303b6c4c3b494843204c4c414d532043494c41544920444c4f42204c41434954414d454854414d3b4334374431,
0x3b3b3b3b3b4e3b3b3b3b38433330203e746e6f663c3b4c3b303b6c4c3b495350204c4c414d532043494c41544920444c4f42204c41434954414d454854414d3b4434374431,
0x3b3b3b3b3b4e3b3b3b3b39433330203e746e6f663c3b4c3b303b6c4c3b4147454d4f204c4c414d532043494c41544920444c4f42204c41434954414d454854414d3b4534374431,
0x3b3b3b3b3b593b3b3b3b32303232203e746e6f663c3b4e4f3b303b6d533b4c4149544e45524546464944204c4149545241502043494c41544920444c4f42204c41434954414d454854414d3b4634374431,
0x3b3b3b3b3b4e3b3b3b3b35463330203e746e6f663c3b4c3b303b6c4c3b4c4f424d5953204e4f4c495350452043494c41544920444c4f42204c41434954414d454854414d3b3035374431,
0x3b3b3b3b3b4e3b3b3b3b31443330203e746e6f663c3b4c3b303b6c4c3b4c4f424d59532041544548542043494c41544920444c4f42204c41434954414d454854414d3b3135374431,
0x3b3b3b3b3b4e3b3b3b3b30463330203e746e6f663c3b4c3b303b6c4c3b4c4f424d595320415050414b2043494c41544920444c4f42204c41434954414d454854414d3b3235374431,
0x3b3b3b3b3b4e3b3b3b3b35443330203e746e6f663c3b4c3b303b6c4c3b4c4f424d5953204948502043494c41544920444c4f42204c41434954414d454854414d3b3335374431,
0x3b3b3b3b3b4e3b3b3b3b31463330203e746e6f663c3b4c3b303b6c4c3b4c4f424d5953204f48522043494c41544920444c4f42204c41434954414d454854414d3b3435374431,
0x3b3b3b3b3b4e3b3b3b3b36443330203e746e6f663c3b4c3b303b6c4c3b4c4f424d59532049502043494c41544920444c4f42204c41434954414d454854414d3b3535374431,
0x3b3b3b3b3b4e3b3b3b3b31393330203e746e6f663c3b4c3b303b754c3b4148504c41204c41544950414320444c4f422046495245532d534e4153204c41434954414d454854414d3b3635374431,
0x3b3b3b3b3b4e3b3b3b3b32393330203e746e6f663c3b4c3b303b754c3b41544542204c41544950414320444c4f422046495245532d534e4153204c41434954414d454854414d3b3735374431,
0x3b3b3b3b3b4e3b3b3b3b33393330203e746e6f663c3b4c3b303b754c3b414d4d4147204c41544950414320444c4f422046495245532d534e4153204c41434954414d454854414d3b3835374431,
0x3b3b3b3b3b4e3b3b3b3b34393330203e746e6f663c3b4c3b303b754c3b41544c4544204c41544950414320444c4f422046495245532d534e4153204c41434954414d454854414d3b3935374431,
0x3b3b3b3b3b4e3b3b3b3b35393330203e746e6f663c3b4c3b303b754c3b4e4f4c49535045204c41544950414320444c4f422046495245532d534e4153204c41434954414d454854414d3b4135374431,
0x3b3b3b3b3b4e3b3b3b3b36393330203e746e6f663c3b4c3b303b754c3b4154455a204c41544950414320444c4f422046495245532d534e4153204c41434954414d454854414d3b4235374431,
0x3b3b3b3b3b4e3b3b3b3b37393330203e746e6f663c3b4c3b303b754c3b415445204c41544950414320444c4f422046495245532d534e4153204c41434954414d454854414d3b4335374431,
0x3b3b3b3b3b4e3b3b3b3b38393330203e746e6f663c3b4c3b303b754c3b4154454854204c41544950414320444c4f422046495245532d534e4153204c41434954414d454854414d3b4435374431,
0x3b3b3b3b3b4e3b3b3b3b39393330203e746e6f663c3b4c3b303b754c3b41544f49204c41544950414320444c4f422046495245532d534e4153204c41434954414d454854414d3b4535374431,
0x3b3b3b3b3b4e3b3b3b3b41393330203e746e6f663c3b4c3b303b754c3b415050414b204c41544950414320444c4f422046495245532d534e4153204c41434954414d454854414d3b4635374431,
0x3b3b3b3b3b4e3b3b3b3b42393330203e746e6f663c3b4c3b303b754c3b41444d414c204c41544950414320444c4f422046495245532d534e4153204c41434954414d454854414d3b3036374431,
0x3b3b3b3b3b4e3b3b3b3b43393330203e746e6f663c3b4c3b303b754c3b554d204c41544950414320444c4f422046495245532d534e4153204c41434954414d454854414d3b3136374431,
0x3b3b3b3b3b4e3b3b3b3b44393330203e746e6f663c3b4c3b303b754c3b554e204c41544950414320444c4f422046495245532d534e4153204c41434954414d454854414d3b3236374431,
0x3b3b3b3b3b4e3b3b3b3b45393330203e746e6f663c3b4c3b303b754c3b4958204c41544950414320444c4f422046495245532d534e4153204c41434954414d454854414d3b3336374431,
0x3b3b3b3b3b4e3b3b3b3b46393330203e746e6f663c3b4c3b303b754c3b4e4f5243494d4f204c41544950414320444c4f422046495245532d534e4153204c41434954414d454854414d3b3436374431,
0x3b3b3b3b3b4e3b3b3b3b30413330203e746e6f663c3b4c3b303b754c3b4950204c41544950414320444c4f422046495245532d534e4153204c41434954414d454854414d3b3536374431,
0x3b3b3b3b3b4e3b3b3b3b31413330203e746e6f663c3b4c3b303b754c3b4f4852204c41544950414320444c4f422046495245532d534e4153204c41434954414d454854414d3b3636374431,
0x3b3b3b3b3b4e3b3b3b3b34463330203e746e6f663c3b4c3b303b754c3b4c4f424d5953204154454854204c41544950414320444c4f422046495245532d534e4153204c41434954414d454854414d3b3736374431,
0x3b3b3b3b3b4e3b3b3b3b33413330203e746e6f663c3b4c3b303b754c3b414d474953204c41544950414320444c4f422046495245532d534e4153204c41434954414d454854414d3b3836374431,
0x3b3b3b3b3b4e3b3b3b3b34413330203e746e6f663c3b4c3b303b754c3b554154204c41544950414320444c4f422046495245532d534e4153204c41434954414d454854414d3b3936374431,
0x3b3b3b3b3b4e3b3b3b3b35413330203e746e6f663c3b4c3b303b754c3b4e4f4c49535055204c41544950414320444c4f422046495245532d534e4153204c41434954414d454854414d3b4136374431,
0x3b3b3b3b3b4e3b3b3b3b36413330203e746e6f663c3b4c3b303b754c3b494850204c41544950414320444c4f422046495245532d534e4153204c41434954414d454854414d3b4236374431,
0x3b3b3b3b3b4e3b3b3b3b37413330203e746e6f663c3b4c3b303b754c3b494843204c41544950414320444c4f422046495245532d534e4153204c41434954414d454854414d3b4336374431,
0x3b3b3b3b3b4e3b3b3b3b38413330203e746e6f663c3b4c3b303b754c3b495350204c41544950414320444c4f422046495245532d534e4153204c41434954414d454854414d3b4436374431,
0x3b3b3b3b3b4e3b3b3b3b39413330203e746e6f663c3b4c3b303b754c3b4147454d4f204c41544950414320444c4f422046495245532d534e4153204c41434954414d454854414d3b4536374431,
0x3b3b3b3b3b4e3b3b3b3b37303232203e746e6f663c3b4c3b303b6d533b414c42414e20444c4f422046495245532d534e4153204c41434954414d454854414d3b4636374431,
0x3b3b3b3b3b4e3b3b3b3b31423330203e746e6f663c3b4c3b303b6c4c3b4148504c41204c4c414d5320444c4f422046495245532d534e4153204c41434954414d454854414d3b3037374431,
0x3b3b3b3b3b4e3b3b3b3b32423330203e746e6f663c3b4c3b303b6c4c3b41544542204c4c414d5320444c4f422046495245532d534e4153204c41434954414d454854414d3b3137374431,
0x3b3b3b3b3b4e3b3b3b3b33423330203e746e6f663c3b4c3b303b6c4c3b414d4d4147204c4c414d5320444c4f422046495245532d534e4153204c41434954414d454854414d3b3237374431,
0x3b3b3b3b3b4e3b3b3b3b34423330203e746e6f663c3b4c3b303b6c4c3b41544c4544204c4c414d5320444c4f422046495245532d534e4153204c41434954414d454854414d3b3337374431,
0x3b3b3b3b3b4e3b3b3b3b35423330203e746e6f663c3b4c3b303b6c4c3b4e4f4c49535045204c4c414d5320444c4f422046495245532d534e4153204c41434954414d454854414d3b3437374431,
0x3b3b3b3b3b4e3b3b3b3b36423330203e746e6f663c3b4c3b303b6c4c3b4154455a204c4c414d5320444c4f422046495245532d534e4153204c41434954414d454854414d3b3537374431,
0x3b3b3b3b3b4e3b3b3b3b37423330203e746e6f663c3b4c3b303b6c4c3b415445204c4c414d5320444c4f422046495245532d534e4153204c41434954414d454854414d3b3637374431,
0x3b3b3b3b3b4e3b3b3b3b38423330203e746e6f663c3b4c3b303b6c4c3b4154454854204c4c414d5320444c4f422046495245532d534e4153204c41434954414d454854414d3b3737374431,
0x3b3b3b3b3b4e3b3b3b3b39423330203e746e6f663c3b4c3b303b6c4c3b41544f49204c4c414d5320444c4f422046495245532d534e4153204c41434954414d454854414d3b3837374431,
0x3b3b3b3b3b4e3b3b3b3b41423330203e746e6f663c3b4c3b303b6c4c3b415050414b204c4c414d5320444c4f422046495245532d534e4153204c41434954414d454854414d3b3937374431,
0x3b3b3b3b3b4e3b3b3b3b42423330203e746e6f663c3b4c3b303b6c4c3b41444d414c204c4c414d5320444c4f422046495245532d534e4153204c41434954414d454854414d3b4137374431,
0x3b3b3b3b3b4e3b3b3b3b43423330203e746e6f663c3b4c3b303b6c4c3b554d204c4c414d5320444c4f422046495245532d534e4153204c41434954414d454854414d3b4237374431,
0x3b3b3b3b3b4e3b3b3b3b44423330203e746e6f663c3b4c3b303b6c4c3b554e204c4c414d5320444c4f422046495245532d534e4153204c41434954414d454854414d3b4337374431,
0x3b3b3b3b3b4e3b3b3b3b45423330203e746e6f663c3b4c3b303b6c4c3b4958204c4c414d5320444c4f422046495245532d534e4153204c41434954414d454854414d3b4437374431,
0x3b3b3b3b3b4e3b3b3b3b46423330203e746e6f663c3b4c3b303b6c4c3b4e4f5243494d4f204c4c414d5320444c4f422046495245532d534e4153204c41434954414d454854414d3b4537374431,
0x3b3b3b3b3b4e3b3b3b3b30433330203e746e6f663c3b4c3b303b6c4c3b4950204c4c414d5320444c4f422046495245532d534e4153204c41434954414d454854414d3b4637374431,
0x3b3b3b3b3b4e3b3b3b3b31433330203e746e6f663c3b4c3b303b6c4c3b4f4852204c4c414d5320444c4f422046495245532d534e4153204c41434954414d454854414d3b3038374431,
0x3b3b3b3b3b4e3b3b3b3b32433330203e746e6f663c3b4c3b303b6c4c3b414d474953204c414e4946204c4c414d5320444c4f422046495245532d534e4153204c41434954414d454854414d3b3138374431,
0x3b3b3b3b3b4e3b3b3b3b33433330203e746e6f663c3b4c3b303b6c4c3b414d474953204c4c414d5320444c4f422046495245532d534e4153204c41434954414d454854414d3b3238374431,
0x3b3b3b3b3b4e3b3b3b3b34433330203e746e6f663c3b4c3b303b6c4c3b554154204c4c414d5320444c4f422046495245532d534e4153204c41434954414d454854414d3b3338374431,
0x3b3b3b3b3b4e3b3b3b3b35433330203e746e6f663c3b4c3b303b6c4c3b4e4f4c49535055204c4c414d5320444c4f422046495245532d534e4153204c41434954414d454854414d3b3438374431,
0x3b3b3b3b3b4e3b3b3b3b36433330203e746e6f663c3b4c3b303b6c4c3b494850204c4c414d5320444c4f422046495245532d534e4153204c41434954414d454854414d3b3538374431,
0x3b3b3b3b3b4e3b3b3b3b37433330203e746e6f663c3b4c3b303b6c4c3b494843204c4c414d5320444c4f422046495245532d534e4153204c41434954414d454854414d3b3638374431,
0x3b3b3b3b3b4e3b3b3b3b38433330203e746e6f663c3b4c3b303b6c4c3b495350204c4c414d5320444c4f422046495245532d534e4153204c41434954414d454854414d3b3738374431,
0x3b3b3b3b3b4e3b3b3b3b39433330203e746e6f663c3b4c3b303b6c4c3b4147454d4f204c4c414d5320444c4f422046495245532d534e4153204c41434954414d454854414d3b3838374431,
0x3b3b3b3b3b593b3b3b3b32303232203e746e6f663c3b4e4f3b303b6d533b4c4149544e45524546464944204c41495452415020444c4f422046495245532d534e4153204c41434954414d454854414d3b3938374431,
0x3b3b3b3b3b4e3b3b3b3b35463330203e746e6f663c3b4c3b303b6c4c3b4c4f424d5953204e4f4c4953504520444c4f422046495245532d534e4153204c41434954414d454854414d3b4138374431,
0x3b3b3b3b3b4e3b3b3b3b31443330203e746e6f663c3b4c3b303b6c4c3b4c4f424d595320415445485420444c4f422046495245532d534e4153204c41434954414d454854414d3b4238374431,
0x3b3b3b3b3b4e3b3b3b3b30463330203e746e6f663c3b4c3b303b6c4c3b4c4f424d595320415050414b20444c4f422046495245532d534e4153204c41434954414d454854414d3b4338374431,
0x3b3b3b3b3b4e3b3b3b3b35443330203e746e6f663c3b4c3b303b6c4c3b4c4f424d59532049485020444c4f422046495245532d534e4153204c41434954414d454854414d3b4438374431,
0x3b3b3b3b3b4e3b3b3b3b31463330203e746e6f663c3b4c3b303b6c4c3b4c4f424d5953204f485220444c4f422046495245532d534e4153204c41434954414d454854414d3b4538374431,
0x3b3b3b3b3b4e3b3b3b3b36443330203e746e6f663c3b4c3b303b6c4c3b4c4f424d595320495020444c4f422046495245532d534e4153204c41434954414d454854414d3b4638374431,
0x3b3b3b3b3b4e3b3b3b3b31393330203e746e6f663c3b4c3b303b754c3b4148504c41204c4154495041432043494c41544920444c4f422046495245532d534e4153204c41434954414d454854414d3b3039374431,
0x3b3b3b3b3b4e3b3b3b3b32393330203e746e6f663c3b4c3b303b754c3b41544542204c4154495041432043494c41544920444c4f422046495245532d534e4153204c41434954414d454854414d3b3139374431,
0x3b3b3b3b3b4e3b3b3b3b33393330203e746e6f663c3b4c3b303b754c3b414d4d4147204c4154495041432043494c41544920444c4f422046495245532d534e4153204c41434954414d454854414d3b3239374431,
0x3b3b3b3b3b4e3b3b3b3b34393330203e746e6f663c3b4c3b303b754c3b41544c4544204c4154495041432043494c41544920444c4f422046495245532d534e4153204c41434954414d454854414d3b3339374431,
0x3b3b3b3b3b4e3b3b3b3b35393330203e746e6f663c3b4c3b303b754c3b4e4f4c49535045204c4154495041432043494c41544920444c4f422046495245532d534e4153204c41434954414d454854414d3b3439374431,
0x3b3b3b3b3b4e3b3b3b3b36393330203e746e6f663c3b4c3b303b754c3b4154455a204c4154495041432043494c41544920444c4f422046495245532d534e4153204c41434954414d454854414d3b3539374431,
0x3b3b3b3b3b4e3b3b3b3b37393330203e746e6f663c3b4c3b303b754c3b415445204c4154495041432043494c41544920444c4f422046495245532d534e4153204c41434954414d454854414d3b3639374431,
0x3b3b3b3b3b4e3b3b3b3b38393330203e746e6f663c3b4c3b303b754c3b4154454854204c4154495041432043494c41544920444c4f422046495245532d534e4153204c41434954414d454854414d3b3739374431,
0x3b3b3b3b3b4e3b3b3b3b39393330203e746e6f663c3b4c3b303b754c3b41544f49204c4154495041432043494c41544920444c4f422046495245532d534e4153204c41434954414d454854414d3b3839374431,
0x3b3b3b3b3b4e3b3b3b3b41393330203e746e6f663c3b4c3b303b754c3b415050414b204c4154495041432043494c41544920444c4f422046495245532d534e4153204c41434954414d454854414d3b3939374431,
0x3b3b3b3b3b4e3b3b3b3b42393330203e746e6f663c3b4c3b303b754c3b41444d414c204c4154495041432043494c41544920444c4f422046495245532d534e4153204c41434954414d454854414d3b4139374431,
0x3b3b3b3b3b4e3b3b3b3b43393330203e746e6f663c3b4c3b303b754c3b554d204c4154495041432043494c41544920444c4f422046495245532d534e4153204c41434954414d454854414d3b4239374431,
0x3b3b3b3b3b4e3b3b3b3b44393330203e746e6f663c3b4c3b303b754c3b554e204c4154495041432043494c41544920444c4f422046495245532d534e4153204c41434954414d454854414d3b4339374431,
0x3b3b3b3b3b4e3b3b3b3b45393330203e746e6f663c3b4c3b303b754c3b4958204c4154495041432043494c41544920444c4f422046495245532d534e4153204c41434954414d454854414d3b4439374431,
0x3b3b3b3b3b4e3b3b3b3b46393330203e746e6f663c3b4c3b303b754c3b4e4f5243494d4f204c4154495041432043494c41544920444c4f422046495245532d534e4153204c41434954414d454854414d3b4539374431,
0x3b3b3b3b3b4e3b3b3b3b30413330203e746e6f663c3b4c3b303b754c3b4950204c4154495041432043494c41544920444c4f422046495245532d534e4153204c41434954414d454854414d3b4639374431,
0x3b3b3b3b3b4e3b3b3b3b31413330203e746e6f663c3b4c3b303b754c3b4f4852204c4154495041432043494c41544920444c4f422046495245532d534e4153204c41434954414d454854414d3b3041374431,
0x3b3b3b3b3b4e3b3b3b3b34463330203e746e6f663c3b4c3b303b754c3b4c4f424d5953204154454854204c4154495041432043494c41544920444c4f422046495245532d534e4153204c41434954414d454854414d3b3141374431,
0x3b3b3b3b3b4e3b3b3b3b33413330203e746e6f663c3b4c3b303b754c3b414d474953204c4154495041432043494c41544920444c4f422046495245532d534e4153204c41434954414d454854414d3b3241374431,
0x3b3b3b3b3b4e3b3b3b3b34413330203e746e6f663c3b4c3b303b754c3b554154204c4154495041432043494c41544920444c4f422046495245532d534e4153204c41434954414d454854414d3b3341374431,
0x3b3b3b3b3b4e3b3b3b3b35413330203e746e6f663c3b4c3b303b754c3b4e4f4c49535055204c4154495041432043494c41544920444c4f422046495245532d534e4153204c41434954414d454854414d3b3441374431,
0x3b3b3b3b3b4e3b3b3b3b36413330203e746e6f663c3b4c3b303b754c3b494850204c4154495041432043494c41544920444c4f422046495245532d534e4153204c41434954414d454854414d3b3541374431,
0x3b3b3b3b3b4e3b3b3b3b37413330203e746e6f663c3b4c3b303b754c3b494843204c4154495041432043494c41544920444c4f422046495245532d534e4153204c41434954414d454854414d3b3641374431,
0x3b3b3b3b3b4e3b3b3b3b38413330203e746e6f663c3b4c3b303b754c3b495350204c4154495041432043494c41544920444c4f422046495245532d534e4153204c41434954414d454854414d3b3741374431,
0x3b3b3b3b3b4e3b3b3b3b39413330203e746e6f663c3b4c3b303b754c3b4147454d4f204c4154495041432043494c41544920444c4f422046495245532d534e4153204c41434954414d454854414d3b3841374431,
0x3b3b3b3b3b4e3b3b3b3b37303232203e746e6f663c3b4c3b303b6d533b414c42414e2043494c41544920444c4f422046495245532d534e4153204c41434954414d454854414d3b3941374431,
0x3b3b3b3b3b4e3b3b3b3b31423330203e746e6f663c3b4c3b303b6c4c3b4148504c41204c4c414d532043494c41544920444c4f422046495245532d534e4153204c41434954414d454854414d3b4141374431,
0x3b3b3b3b3b4e3b3b3b3b32423330203e746e6f663c3b4c3b303b6c4c3b41544542204c4c414d532043494c41544920444c4f422046495245532d534e4153204c41434954414d454854414d3b4241374431,
0x3b3b3b3b3b4e3b3b3b3b33423330203e746e6f663c3b4c3b303b6c4c3b414d4d4147204c4c414d532043494c41544920444c4f422046495245532d534e4153204c41434954414d454854414d3b4341374431,
0x3b3b3b3b3b4e3b3b3b3b34423330203e746e6f663c3b4c3b303b6c4c3b41544c4544204c4c414d532043494c41544920444c4f422046495245532d534e4153204c41434954414d454854414d3b4441374431,
0x3b3b3b3b3b4e3b3b3b3b35423330203e746e6f663c3b4c3b303b6c4c3b4e4f4c49535045204c4c414d532043494c41544920444c4f422046495245532d534e4153204c41434954414d454854414d3b4541374431,
0x3b3b3b3b3b4e3b3b3b3b36423330203e746e6f663c3b4c3b303b6c4c3b4154455a204c4c414d532043494c41544920444c4f422046495245532d534e4153204c41434954414d454854414d3b4641374431,
0x3b3b3b3b3b4e3b3b3b3b37423330203e746e6f663c3b4c3b303b6c4c3b415445204c4c414d532043494c41544920444c4f422046495245532d534e4153204c41434954414d454854414d3b3042374431,
0x3b3b3b3b3b4e3b3b3b3b38423330203e746e6f663c3b4c3b303b6c4c3b4154454854204c4c414d532043494c41544920444c4f422046495245532d534e4153204c41434954414d454854414d3b3142374431,
0x3b3b3b3b3b4e3b3b3b3b39423330203e746e6f663c3b4c3b303b6c4c3b41544f49204c4c414d532043494c41544920444c4f422046495245532d534e4153204c41434954414d454854414d3b3242374431,
0x3b3b3b3b3b4e3b3b3b3b41423330203e746e6f663c3b4c3b303b6c4c3b415050414b204c4c414d532043494c41544920444c4f422046495245532d534e4153204c41434954414d454854414d3b3342374431,
0x3b3b3b3b3b4e3b3b3b3b42423330203e746e6f663c3b4c3b303b6c4c3b41444d414c204c4c414d532043494c41544920444c4f422046495245532d534e4153204c41434954414d454854414d3b3442374431,
0x3b3b3b3b3b4e3b3b3b3b43423330203e746e6f663c3b4c3b303b6c4c3b554d204c4c414d532043494c41544920444c4f422046495245532d534e4153204c41434954414d454854414d3b3542374431,
0x3b3b3b3b3b4e3b3b3b3b44423330203e746e6f663c3b4c3b303b6c4c3b554e204c4c414d532043494c41544920444c4f422046495245532d534e4153204c41434954414d454854414d3b3642374431,
0x3b3b3b3b3b4e3b3b3b3b45423330203e746e6f663c3b4c3b303b6c4c3b4958204c4c414d532043494c41544920444c4f422046495245532d534e4153204c41434954414d454854414d3b3742374431,
0x3b3b3b3b3b4e3b3b3b3b46423330203e746e6f663c3b4c3b303b6c4c3b4e4f5243494d4f204c4c414d532043494c41544920444c4f422046495245532d534e4153204c41434954414d454854414d3b3842374431,
0x3b3b3b3b3b4e3b3b3b3b30433330203e746e6f663c3b4c3b303b6c4c3b4950204c4c414d532043494c41544920444c4f422046495245532d534e4153204c41434954414d454854414d3b3942374431,
0x3b3b3b3b3b4e3b3b3b3b31433330203e746e6f663c3b4c3b303b6c4c3b4f4852204c4c414d532043494c41544920444c4f422046495245532d534e4153204c41434954414d454854414d3b4142374431,
0x3b3b3b3b3b4e3b3b3b3b32433330203e746e6f663c3b4c3b303b6c4c3b414d474953204c414e4946204c4c414d532043494c41544920444c4f422046495245532d534e4153204c41434954414d454854414d3b4242374431,
0x3b3b3b3b3b4e3b3b3b3b33433330203e746e6f663c3b4c3b303b6c4c3b414d474953204c4c414d532043494c41544920444c4f422046495245532d534e4153204c41434954414d454854414d3b4342374431,
0x3b3b3b3b3b4e3b3b3b3b34433330203e746e6f663c3b4c3b303b6c4c3b554154204c4c414d532043494c41544920444c4f422046495245532d534e4153204c41434954414d454854414d3b4442374431,
0x3b3b3b3b3b4e3b3b3b3b35433330203e746e6f663c3b4c3b303b6c4c3b4e4f4c49535055204c4c414d532043494c41544920444c4f422046495245532d534e4153204c41434954414d454854414d3b4542374431,
0x3b3b3b3b3b4e3b3b3b3b36433330203e746e6f663c3b4c3b303b6c4c3b494850204c4c414d532043494c41544920444c4f422046495245532d534e4153204c41434954414d454854414d3b4642374431,
0x3b3b3b3b3b4e3b3b3b3b37433330203e746e6f663c3b4c3b303b6c4c3b494843204c4c414d532043494c41544920444c4f422046495245532d534e4153204c41434954414d454854414d3b3043374431,
0x3b3b3b3b3b4e3b3b3b3b38433330203e746e6f663c3b4c3b303b6c4c3b495350204c4c414d532043494c41544920444c4f422046495245532d534e4153204c41434954414d454854414d3b3143374431,
0x3b3b3b3b3b4e3b3b3b3b39433330203e746e6f663c3b4c3b303b6c4c3b4147454d4f204c4c414d532043494c41544920444c4f422046495245532d534e4153204c41434954414d454854414d3b3243374431,
0x3b3b3b3b3b593b3b3b3b32303232203e746e6f663c3b4e4f3b303b6d533b4c4149544e45524546464944204c4149545241502043494c41544920444c4f422046495245532d534e4153204c41434954414d454854414d3b3343374431,
0x3b3b3b3b3b4e3b3b3b3b35463330203e746e6f663c3b4c3b303b6c4c3b4c4f424d5953204e4f4c495350452043494c41544920444c4f422046495245532d534e4153204c41434954414d454854414d3b3443374431,
0x3b3b3b3b3b4e3b3b3b3b31443330203e746e6f663c3b4c3b303b6c4c3b4c4f424d59532041544548542043494c41544920444c4f422046495245532d534e4153204c41434954414d454854414d3b3543374431,
0x3b3b3b3b3b4e3b3b3b3b30463330203e746e6f663c3b4c3b303b6c4c3b4c4f424d595320415050414b2043494c41544920444c4f422046495245532d534e4153204c41434954414d454854414d3b3643374431,
0x3b3b3b3b3b4e3b3b3b3b35443330203e746e6f663c3b4c3b303b6c4c3b4c4f424d5953204948502043494c41544920444c4f422046495245532d534e4153204c41434954414d454854414d3b3743374431,
0x3b3b3b3b3b4e3b3b3b3b31463330203e746e6f663c3b4c3b303b6c4c3b4c4f424d5953204f48522043494c41544920444c4f422046495245532d534e4153204c41434954414d454854414d3b3843374431,
0x3b3b3b3b3b4e3b3b3b3b36443330203e746e6f663c3b4c3b303b6c4c3b4c4f424d59532049502043494c41544920444c4f422046495245532d534e4153204c41434954414d454854414d3b3943374431,
0x3b3b3b3b3b4e3b3b3b3b43443330203e746e6f663c3b4c3b303b754c3b414d4d41474944204c41544950414320444c4f42204c41434954414d454854414d3b4143374431,
0x3b3b3b3b3b4e3b3b3b3b44443330203e746e6f663c3b4c3b303b6c4c3b414d4d41474944204c4c414d5320444c4f42204c41434954414d454854414d3b4243374431,
0x3b3b3b3b3b4e3b303b303b303b30333030203e746e6f663c3b4e453b303b644e3b4f52455a20544947494420444c4f42204c41434954414d454854414d3b4543374431,
0x3b3b3b3b3b4e3b313b313b313b31333030203e746e6f663c3b4e453b303b644e3b454e4f20544947494420444c4f42204c41434954414d454854414d3b4643374431,
0x3b3b3b3b3b4e3b323b323b323b32333030203e746e6f663c3b4e453b303b644e3b4f575420544947494420444c4f42204c41434954414d454854414d3b3044374431,
0x3b3b3b3b3b4e3b333b333b333b33333030203e746e6f663c3b4e453b303b644e3b454552485420544947494420444c4f42204c41434954414d454854414d3b3144374431,
0x3b3b3b3b3b4e3b343b343b343b34333030203e746e6f663c3b4e453b303b644e3b52554f4620544947494420444c4f42204c41434954414d454854414d3b3244374431,
0x3b3b3b3b3b4e3b353b353b353b35333030203e746e6f663c3b4e453b303b644e3b4556494620544947494420444c4f42204c41434954414d454854414d3b3344374431,
0x3b3b3b3b3b4e3b363b363b363b36333030203e746e6f663c3b4e453b303b644e3b58495320544947494420444c4f42204c41434954414d454854414d3b3444374431,
0x3b3b3b3b3b4e3b373b373b373b37333030203e746e6f663c3b4e453b303b644e3b4e4556455320544947494420444c4f42204c41434954414d454854414d3b3544374431,
0x3b3b3b3b3b4e3b383b383b383b38333030203e746e6f663c3b4e453b303b644e3b544847494520544947494420444c4f42204c41434954414d454854414d3b3644374431,
0x3b3b3b3b3b4e3b393b393b393b39333030203e746e6f663c3b4e453b303b644e3b454e494e20544947494420444c4f42204c41434954414d454854414d3b3744374431,
0x3b3b3b3b3b4e3b303b303b303b30333030203e746e6f663c3b4e453b303b644e3b4f52455a205449474944204b43555254532d454c42554f44204c41434954414d454854414d3b3844374431,
0x3b3b3b3b3b4e3b313b313b313b31333030203e746e6f663c3b4e453b303b644e3b454e4f205449474944204b43555254532d454c42554f44204c41434954414d454854414d3b3944374431,
0x3b3b3b3b3b4e3b323b323b323b32333030203e746e6f663c3b4e453b303b644e3b4f5754205449474944204b43555254532d454c42554f44204c41434954414d454854414d3b4144374431,
0x3b3b3b3b3b4e3b333b333b333b33333030203e746e6f663c3b4e453b303b644e3b4545524854205449474944204b43555254532d454c42554f44204c41434954414d454854414d3b4244374431,
0x3b3b3b3b3b4e3b343b343b343b34333030203e746e6f663c3b4e453b303b644e3b52554f46205449474944204b43555254532d454c42554f44204c41434954414d454854414d3b4344374431,
0x3b3b3b3b3b4e3b353b353b353b35333030203e746e6f663c3b4e453b303b644e3b45564946205449474944204b43555254532d454c42554f44204c41434954414d454854414d3b4444374431,
0x3b3b3b3b3b4e3b363b363b363b36333030203e746e6f663c3b4e453b303b644e3b584953205449474944204b43555254532d454c42554f44204c41434954414d454854414d3b4544374431,
0x3b3b3b3b3b4e3b373b373b373b37333030203e746e6f663c3b4e453b303b644e3b4e45564553205449474944204b43555254532d454c42554f44204c41434954414d454854414d3b4644374431,
0x3b3b3b3b3b4e3b383b383b383b38333030203e746e6f663c3b4e453b303b644e3b5448474945205449474944204b43555254532d454c42554f44204c41434954414d454854414d3b3045374431,
0x3b3b3b3b3b4e3b393b393b393b39333030203e746e6f663c3b4e453b303b644e3b454e494e205449474944204b43555254532d454c42554f44204c41434954414d454854414d3b3145374431,
0x3b3b3b3b3b4e3b303b303b303b30333030203e746e6f663c3b4e453b303b644e3b4f52455a2054494749442046495245532d534e4153204c41434954414d454854414d3b3245374431,
0x3b3b3b3b3b4e3b313b313b313b31333030203e746e6f663c3b4e453b303b644e3b454e4f2054494749442046495245532d534e4153204c41434954414d454854414d3b3345374431,
0x3b3b3b3b3b4e3b323b323b323b32333030203e746e6f663c3b4e453b303b644e3b4f57542054494749442046495245532d534e4153204c41434954414d454854414d3b3445374431,
0x3b3b3b3b3b4e3b333b333b333b33333030203e746e6f663c3b4e453b303b644e3b45455248542054494749442046495245532d534e4153204c41434954414d454854414d3b3545374431,
0x3b3b3b3b3b4e3b343b343b343b34333030203e746e6f663c3b4e453b303b644e3b52554f462054494749442046495245532d534e4153204c41434954414d454854414d3b3645374431,
0x3b3b3b3b3b4e3b353b353b353b35333030203e746e6f663c3b4e453b303b644e3b455649462054494749442046495245532d534e4153204c41434954414d454854414d3b3745374431,
0x3b3b3b3b3b4e3b363b363b363b36333030203e746e6f663c3b4e453b303b644e3b5849532054494749442046495245532d534e4153204c41434954414d454854414d3b3845374431,
0x3b3b3b3b3b4e3b373b373b373b37333030203e746e6f663c3b4e453b303b644e3b4e455645532054494749442046495245532d534e4153204c41434954414d454854414d3b3945374431,
0x3b3b3b3b3b4e3b383b383b383b38333030203e746e6f663c3b4e453b303b644e3b54484749452054494749442046495245532d534e4153204c41434954414d454854414d3b4145374431,
0x3b3b3b3b3b4e3b393b393b393b39333030203e746e6f663c3b4e453b303b644e3b454e494e2054494749442046495245532d534e4153204c41434954414d454854414d3b4245374431,
0x3b3b3b3b3b4e3b303b303b303b30333030203e746e6f663c3b4e453b303b644e3b4f52455a20544947494420444c4f422046495245532d534e4153204c41434954414d454854414d3b4345374431]

/-- src/u5e/props/UnicodeData.txt lines 26625-26880. -/
def rawUcd104 : List Nat := [
0x3b3b3b3b3b4e3b313b313b313b31333030203e746e6f663c3b4e453b303b644e3b454e4f20544947494420444c4f422046495245532d534e4153204c41434954414d454854414d3b4445374431,
0x3b3b3b3b3b4e3b323b323b323b32333030203e746e6f663c3b4e453b303b644e3b4f575420544947494420444c4f422046495245532d534e4153204c41434954414d454854414d3b4545374431,
0x3b3b3b3b3b4e3b333b333b333b33333030203e746e6f663c3b4e453b303b644e3b454552485420544947494420444c4f422046495245532d534e4153204c41434954414d454854414d3b4645374431,
0x3b3b3b3b3b4e3b343b343b343b34333030203e746e6f663c3b4e453b303b644e3b52554f4620544947494420444c4f422046495245532d534e4153204c41434954414d454854414d3b3046374431,
0x3b3b3b3b3b4e3b353b353b353b35333030203e746e6f663c3b4e453b303b644e3b4556494620544947494420444c4f422046495245532d534e4153204c41434954414d454854414d3b3146374431,
0x3b3b3b3b3b4e3b363b363b363b36333030203e746e6f663c3b4e453b303b644e3b58495320544947494420444c4f422046495245532d534e4153204c41434954414d454854414d3b3246374431,
0x3b3b3b3b3b4e3b373b373b373b37333030203e746e6f663c3b4e453b303b644e3b4e4556455320544947494420444c4f422046495245532d534e4153204c41434954414d454854414d3b3346374431,
0x3b3b3b3b3b4e3b383b383b383b38333030203e746e6f663c3b4e453b303b644e3b544847494520544947494420444c4f422046495245532d534e4153204c41434954414d454854414d3b3446374431,
0x3b3b3b3b3b4e3b393b393b393b39333030203e746e6f663c3b4e453b303b644e3b454e494e20544947494420444c4f422046495245532d534e4153204c41434954414d454854414d3b3546374431,
0x3b3b3b3b3b4e3b303b303b303b30333030203e746e6f663c3b4e453b303b644e3b4f52455a2054494749442045434150534f4e4f4d204c41434954414d454854414d3b3646374431,
0x3b3b3b3b3b4e3b313b313b313b31333030203e746e6f663c3b4e453b303b644e3b454e4f2054494749442045434150534f4e4f4d204c41434954414d454854414d3b3746374431,
0x3b3b3b3b3b4e3b323b323b323b32333030203e746e6f663c3b4e453b303b644e3b4f57542054494749442045434150534f4e4f4d204c41434954414d454854414d3b3846374431,
0x3b3b3b3b3b4e3b333b333b333b33333030203e746e6f663c3b4e453b303b644e3b45455248542054494749442045434150534f4e4f4d204c41434954414d454854414d3b3946374431,
0x3b3b3b3b3b4e3b343b343b343b34333030203e746e6f663c3b4e453b303b644e3b52554f462054494749442045434150534f4e4f4d204c41434954414d454854414d3b4146374431,
0x3b3b3b3b3b4e3b353b353b353b35333030203e746e6f663c3b4e453b303b644e3b455649462054494749442045434150534f4e4f4d204c41434954414d454854414d3b4246374431,
0x3b3b3b3b3b4e3b363b363b363b36333030203e746e6f663c3b4e453b303b644e3b5849532054494749442045434150534f4e4f4d204c41434954414d454854414d3b4346374431,
0x3b3b3b3b3b4e3b373b373b373b37333030203e746e6f663c3b4e453b303b644e3b4e455645532054494749442045434150534f4e4f4d204c41434954414d454854414d3b4446374431,
0x3b3b3b3b3b4e3b383b383b383b38333030203e746e6f663c3b4e453b303b644e3b54484749452054494749442045434150534f4e4f4d204c41434954414d454854414d3b4546374431,
0x3b3b3b3b3b4e3b393b393b393b39333030203e746e6f663c3b4e453b303b644e3b454e494e2054494749442045434150534f4e4f4d204c41434954414d454854414d3b4646374431,
0x3b3b3b3b3b4e3b3b3b3b3b4c3b303b6f533b5845444e4920545349462d444e414820474e49544952574e4749533b3030384431,
0x3b3b3b3b3b4e3b3b3b3b3b4c3b303b6f533b5845444e4920454c435249432d444e414820474e49544952574e4749533b3130384431,
0x3b3b3b3b3b4e3b3b3b3b3b4c3b303b6f533b5845444e49205055432d444e414820474e49544952574e4749533b3230384431,
0x3b3b3b3b3b4e3b3b3b3b3b4c3b303b6f533b5845444e49204c41564f2d444e414820474e49544952574e4749533b3330384431,
0x3b3b3b3b3b4e3b3b3b3b3b4c3b303b6f533b5845444e492045474e49482d444e414820474e49544952574e4749533b3430384431,
0x3b3b3b3b3b4e3b3b3b3b3b4c3b303b6f533b5845444e4920454c474e412d444e414820474e49544952574e4749533b3530384431,
0x3b3b3b3b3b4e3b3b3b3b3b4c3b303b6f533b544e4542205845444e4920545349462d444e414820474e49544952574e4749533b3630384431,
0x3b3b3b3b3b4e3b3b3b3b3b4c3b303b6f533b544e4542205845444e4920454c435249432d444e414820474e49544952574e4749533b3730384431,
0x3b3b3b3b3b4e3b3b3b3b3b4c3b303b6f533b544e4542205845444e49205245444e5520424d55485420545349462d444e414820474e49544952574e4749533b3830384431,
0x3b3b3b3b3b4e3b3b3b3b3b4c3b303b6f533b454c4b43554e4b20444553494152205845444e4920545349462d444e414820474e49544952574e4749533b3930384431,
0x3b3b3b3b3b4e3b3b3b3b3b4c3b303b6f533b444550505543205845444e4920545349462d444e414820474e49544952574e4749533b4130384431,
0x3b3b3b3b3b4e3b3b3b3b3b4c3b303b6f533b4445474e4948205845444e4920545349462d444e414820474e49544952574e4749533b4230384431,
0x3b3b3b3b3b4e3b3b3b3b3b4c3b303b6f533b574f4c204445474e4948205845444e4920545349462d444e414820474e49544952574e4749533b4330384431,
0x3b3b3b3b3b4e3b3b3b3b3b4c3b303b6f533b45474e4948205845444e4920454c435249432d444e414820474e49544952574e4749533b4430384431,
0x3b3b3b3b3b4e3b3b3b3b3b4c3b303b6f533b454c4444494d205845444e4920545349462d444e414820474e49544952574e4749533b4530384431,
0x3b3b3b3b3b4e3b3b3b3b3b4c3b303b6f533b454c4444494d205845444e4920454c435249432d444e414820474e49544952574e4749533b4630384431,
0x3b3b3b3b3b4e3b3b3b3b3b4c3b303b6f533b544e454220454c4444494d205845444e4920545349462d444e414820474e49544952574e4749533b3031384431,
0x3b3b3b3b3b4e3b3b3b3b3b4c3b303b6f533b53454c4b43554e4b2044455349415220454c4444494d205845444e4920545349462d444e414820474e49544952574e4749533b3131384431,
0x3b3b3b3b3b4e3b3b3b3b3b4c3b303b6f533b4445474e494820454c4444494d205845444e4920545349462d444e414820474e49544952574e4749533b3231384431,
0x3b3b3b3b3b4e3b3b3b3b3b4c3b303b6f533b4445474e494820454c4444494d205055205845444e4920545349462d444e414820474e49544952574e4749533b3331384431,
0x3b3b3b3b3b4e3b3b3b3b3b4c3b303b6f533b505520454c4444494d204445474e4948205845444e4920545349462d444e414820474e49544952574e4749533b3431384431,
0x3b3b3b3b3b4e3b3b3b3b3b4c3b303b6f533b44454e494f4a4e4f4320454c4444494d205845444e4920545349462d444e414820474e49544952574e4749533b3531384431,
0x3b3b3b3b3b4e3b3b3b3b3b4c3b303b6f533b544e4542205845444e492044454e494f4a4e4f4320454c4444494d205845444e4920545349462d444e414820474e49544952574e4749533b3631384431,
0x3b3b3b3b3b4e3b3b3b3b3b4c3b303b6f533b544e454220454c4444494d2044454e494f4a4e4f4320454c4444494d205845444e4920545349462d444e414820474e49544952574e4749533b3731384431,
0x3b3b3b3b3b4e3b3b3b3b3b4c3b303b6f533b4445505055432044454e494f4a4e4f4320454c4444494d205845444e4920545349462d444e414820474e49544952574e4749533b3831384431,
0x3b3b3b3b3b4e3b3b3b3b3b4c3b303b6f533b4445474e49482044454e494f4a4e4f4320454c4444494d205845444e4920545349462d444e414820474e49544952574e4749533b3931384431,
0x3b3b3b3b3b4e3b3b3b3b3b4c3b303b6f533b444553534f524320454c4444494d205845444e4920545349462d444e414820474e49544952574e4749533b4131384431,
0x3b3b3b3b3b4e3b3b3b3b3b4c3b303b6f533b444553534f524320454c4444494d205845444e4920454c435249432d444e414820474e49544952574e4749533b4231384431,
0x3b3b3b3b3b4e3b3b3b3b3b4c3b303b6f533b5845444e49205245564f20544e454220454c4444494d20545349462d444e414820474e49544952574e4749533b4331384431,
0x3b3b3b3b3b4e3b3b3b3b3b4c3b303b6f533b454c4444494d205245564f20544e4542205845444e4920545349462d444e414820474e49544952574e4749533b4431384431,
0x3b3b3b3b3b4e3b3b3b3b3b4c3b303b6f533b424d55485420454c4444494d205845444e4920545349462d444e414820474e49544952574e4749533b4531384431,
0x3b3b3b3b3b4e3b3b3b3b3b4c3b303b6f533b424d55485420454c4444494d205845444e4920454c435249432d444e414820474e49544952574e4749533b4631384431,
0x3b3b3b3b3b4e3b3b3b3b3b4c3b303b6f533b544e454220424d55485420544847494152545320454c4444494d205845444e4920545349462d444e414820474e49544952574e4749533b3032384431,
0x3b3b3b3b3b4e3b3b3b3b3b4c3b303b6f533b544847494152545320424d55485420544e454220454c4444494d205845444e4920545349462d444e414820474e49544952574e4749533b3132384431,
0x3b3b3b3b3b4e3b3b3b3b3b4c3b303b6f533b544e454220424d55485420454c4444494d205845444e4920545349462d444e414820474e49544952574e4749533b3232384431,
0x3b3b3b3b3b4e3b3b3b3b3b4c3b303b6f533b4544495320424d55485420444145525053204445474e494820454c4444494d205845444e4920545349462d444e414820474e49544952574e4749533b3332384431,
0x3b3b3b3b3b4e3b3b3b3b3b4c3b303b6f533b4544495320424d554854204445474e494820454c4444494d205055205845444e4920545349462d444e414820474e49544952574e4749533b3432384431,
0x3b3b3b3b3b4e3b3b3b3b3b4c3b303b6f533b44454e494f4a4e4f4320424d554854204445474e494820454c4444494d205055205845444e4920545349462d444e414820474e49544952574e4749533b3532384431,
0x3b3b3b3b3b4e3b3b3b3b3b4c3b303b6f533b4544495320424d55485420505520454c4444494d204445474e4948205845444e4920545349462d444e414820474e49544952574e4749533b3632384431,
0x3b3b3b3b3b4e3b3b3b3b3b4c3b303b6f533b44524157524f4620424d5548542044414552505320505520454c4444494d205845444e4920545349462d444e414820474e49544952574e4749533b3732384431,
0x3b3b3b3b3b4e3b3b3b3b3b4c3b303b6f533b44455050554320424d55485420454c4444494d205845444e4920545349462d444e414820474e49544952574e4749533b3832384431,
0x3b3b3b3b3b4e3b3b3b3b3b4c3b303b6f533b44454c4352494320424d55485420454c4444494d205845444e4920545349462d444e414820474e49544952574e4749533b3932384431,
0x3b3b3b3b3b4e3b3b3b3b3b4c3b303b6f533b44454b4f4f4820424d55485420454c4444494d205845444e4920545349462d444e414820474e49544952574e4749533b4132384431,
0x3b3b3b3b3b4e3b3b3b3b3b4c3b303b6f533b4445474e494820424d55485420454c4444494d205845444e4920545349462d444e414820474e49544952574e4749533b4232384431,
0x3b3b3b3b3b4e3b3b3b3b3b4c3b303b6f533b544847494152545320454c4444494d205845444e49204e45455754454220424d55485420545349462d444e414820474e49544952574e4749533b4332384431,
0x3b3b3b3b3b4e3b3b3b3b3b4c3b303b6f533b4544495320424d5548542044454e494f4a4e4f4320454c4444494d205845444e4920545349462d444e414820474e49544952574e4749533b4432384431,
0x3b3b3b3b3b4e3b3b3b3b3b4c3b303b6f533b44454e494f4a4e4f43204544495320424d5548542044454e494f4a4e4f4320454c4444494d205845444e4920545349462d444e414820474e49544952574e4749533b4532384431,
0x3b3b3b3b3b4e3b3b3b3b3b4c3b303b6f533b544e4542204544495320424d5548542044454e494f4a4e4f4320454c4444494d205845444e4920545349462d444e414820474e49544952574e4749533b4632384431,
0x3b3b3b3b3b4e3b3b3b3b3b4c3b303b6f533b5055205845444e492044454b4f4f4820424d55485420454c4444494d20545349462d444e414820474e49544952574e4749533b3033384431,
0x3b3b3b3b3b4e3b3b3b3b3b4c3b303b6f533b505520454c4444494d2044454b4f4f4820424d554854205845444e4920545349462d444e414820474e49544952574e4749533b3133384431,
0x3b3b3b3b3b4e3b3b3b3b3b4c3b303b6f533b4544495320424d554854204445474e49482044454e494f4a4e4f4320454c4444494d205845444e4920545349462d444e414820474e49544952574e4749533b3233384431,
0x3b3b3b3b3b4e3b3b3b3b3b4c3b303b6f533b4544495320424d55485420444553534f524320454c4444494d205845444e4920545349462d444e414820474e49544952574e4749533b3333384431,
0x3b3b3b3b3b4e3b3b3b3b3b4c3b303b6f533b44524157524f4620424d5548542044454e494f4a4e4f4320454c4444494d205845444e4920545349462d444e414820474e49544952574e4749533b3433384431,
0x3b3b3b3b3b4e3b3b3b3b3b4c3b303b6f533b44524157524f4620424d554854204445505055432044454e494f4a4e4f4320454c4444494d205845444e4920545349462d444e414820474e49544952574e4749533b3533384431,
0x3b3b3b3b3b4e3b3b3b3b3b4c3b303b6f533b5055205845444e492044455050554320424d55485420454c4444494d20545349462d444e414820474e49544952574e4749533b3633384431,
0x3b3b3b3b3b4e3b3b3b3b3b4c3b303b6f533b505520454c4444494d2044455050554320424d554854205845444e4920545349462d444e414820474e49544952574e4749533b3733384431,
0x3b3b3b3b3b4e3b3b3b3b3b4c3b303b6f533b5055205845444e492044454c4352494320424d55485420454c4444494d20545349462d444e414820474e49544952574e4749533b3833384431,
0x3b3b3b3b3b4e3b3b3b3b3b4c3b303b6f533b4445474e4948205845444e492044454c4352494320424d55485420454c4444494d20545349462d444e414820474e49544952574e4749533b3933384431,
0x3b3b3b3b3b4e3b3b3b3b3b4c3b303b6f533b505520454c4444494d2054554f2044454c474e4120424d554854205845444e4920545349462d444e414820474e49544952574e4749533b4133384431,
0x3b3b3b3b3b4e3b3b3b3b3b4c3b303b6f533b505520454c4444494d204e492044454c474e4120424d554854205845444e4920545349462d444e414820474e49544952574e4749533b4233384431,
0x3b3b3b3b3b4e3b3b3b3b3b4c3b303b6f533b505520454c4444494d2044454c4352494320424d554854205845444e4920545349462d444e414820474e49544952574e4749533b4333384431,
0x3b3b3b3b3b4e3b3b3b3b3b4c3b303b6f533b4445474e49482044454e494f4a4e4f4320424d55485420454c4444494d205845444e4920545349462d444e414820474e49544952574e4749533b4433384431,
0x3b3b3b3b3b4e3b3b3b3b3b4c3b303b6f533b54554f2044454c474e4120424d55485420454c4444494d205845444e4920545349462d444e414820474e49544952574e4749533b4533384431,
0x3b3b3b3b3b4e3b3b3b3b3b4c3b303b6f533b44454c474e4120424d55485420454c4444494d205845444e4920545349462d444e414820474e49544952574e4749533b4633384431,
0x3b3b3b3b3b4e3b3b3b3b3b4c3b303b6f533b5055205845444e492054554f2044454c474e4120424d55485420454c4444494d20545349462d444e414820474e49544952574e4749533b3034384431,
0x3b3b3b3b3b4e3b3b3b3b3b4c3b303b6f533b444553534f5243205845444e492054554f2044454c474e4120424d55485420454c4444494d20545349462d444e414820474e49544952574e4749533b3134384431,
0x3b3b3b3b3b4e3b3b3b3b3b4c3b303b6f533b5055205845444e492044454c474e4120424d55485420454c4444494d20545349462d444e414820474e49544952574e4749533b3234384431,
0x3b3b3b3b3b4e3b3b3b3b3b4c3b303b6f533b4445474e494820454c4444494d2044454b4f4f4820424d554854205845444e4920545349462d444e414820474e49544952574e4749533b3334384431,
0x3b3b3b3b3b4e3b3b3b3b3b4c3b303b6f533b535245474e49462052554f462054414c462d444e414820474e49544952574e4749533b3434384431,
0x3b3b3b3b3b4e3b3b3b3b3b4c3b303b6f533b544e454220535245474e49462052554f462054414c462d444e414820474e49544952574e4749533b3534384431,
0x3b3b3b3b3b4e3b3b3b3b3b4c3b303b6f533b4445474e494820535245474e49462052554f462054414c462d444e414820474e49544952574e4749533b3634384431,
0x3b3b3b3b3b4e3b3b3b3b3b4c3b303b6f533b44454e494f4a4e4f4320535245474e49462052554f462054414c462d444e414820474e49544952574e4749533b3734384431,
0x3b3b3b3b3b4e3b3b3b3b3b4c3b303b6f533b54494c50532044454e494f4a4e4f4320535245474e49462052554f462054414c462d444e414820474e49544952574e4749533b3834384431,
0x3b3b3b3b3b4e3b3b3b3b3b4c3b303b6f533b44454e494f4a4e4f4320535245474e49462052554f462057414c432d444e414820474e49544952574e4749533b3934384431,
0x3b3b3b3b3b4e3b3b3b3b3b4c3b303b6f533b544e45422044454e494f4a4e4f4320535245474e49462052554f4620545349462d444e414820474e49544952574e4749533b4134384431,
0x3b3b3b3b3b4e3b3b3b3b3b4c3b303b6f533b44454e494f4a4e4f4320535245474e49462052554f462045474e49482d444e414820474e49544952574e4749533b4234384431,
0x3b3b3b3b3b4e3b3b3b3b3b4c3b303b6f533b44414552505320535245474e494620455649462054414c462d444e414820474e49544952574e4749533b4334384431,
0x3b3b3b3b3b4e3b3b3b3b3b4c3b303b6f533b44414552505320535245474e49462045564946204c4545482054414c462d444e414820474e49544952574e4749533b4434384431,
0x3b3b3b3b3b4e3b3b3b3b3b4c3b303b6f533b544e45422052554f462044414552505320535245474e494620455649462054414c462d444e414820474e49544952574e4749533b4534384431,
0x3b3b3b3b3b4e3b3b3b3b3b4c3b303b6f533b544e45422052554f462044414552505320535245474e49462045564946204c4545482054414c462d444e414820474e49544952574e4749533b4634384431,
0x3b3b3b3b3b4e3b3b3b3b3b4c3b303b6f533b544e45422044414552505320535245474e494620455649462054414c462d444e414820474e49544952574e4749533b3035384431,
0x3b3b3b3b3b4e3b3b3b3b3b4c3b303b6f533b544e45422044414552505320535245474e49462045564946204c4545482054414c462d444e414820474e49544952574e4749533b3135384431,
0x3b3b3b3b3b4e3b3b3b3b3b4c3b303b6f533b44524157524f4620424d5548542044414552505320535245474e494620455649462054414c462d444e414820474e49544952574e4749533b3235384431,
0x3b3b3b3b3b4e3b3b3b3b3b4c3b303b6f533b44414552505320535245474e49462045564946205055432d444e414820474e49544952574e4749533b3335384431,
0x3b3b3b3b3b4e3b3b3b3b3b4c3b303b6f533b4e45504f2044414552505320535245474e49462045564946205055432d444e414820474e49544952574e4749533b3435384431,
0x3b3b3b3b3b4e3b3b3b3b3b4c3b303b6f533b4e45504f2044414552505320535245474e494620455649462045474e49482d444e414820474e49544952574e4749533b3535384431,
0x3b3b3b3b3b4e3b3b3b3b3b4c3b303b6f533b44414552505320535245474e49462045564946204c41564f2d444e414820474e49544952574e4749533b3635384431,
0x3b3b3b3b3b4e3b3b3b3b3b4c3b303b6f533b4445474e49482044414552505320535245474e494620455649462054414c462d444e414820474e49544952574e4749533b3735384431,
0x3b3b3b3b3b4e3b3b3b3b3b4c3b303b6f533b4544495320424d554854204445474e49482044414552505320535245474e494620455649462054414c462d444e414820474e49544952574e4749533b3835384431,
0x3b3b3b3b3b4e3b3b3b3b3b4c3b303b6f533b424d554854204f4e204445474e49482044414552505320535245474e494620455649462054414c462d444e414820474e49544952574e4749533b3935384431,
0x3b3b3b3b3b4e3b3b3b3b3b4c3b303b6f533b54414c462d444e414820474e49544952574e4749533b4135384431,
0x3b3b3b3b3b4e3b3b3b3b3b4c3b303b6f533b53474e49434146204d4c4150204e4545575445422054414c462d444e414820474e49544952574e4749533b4235384431,
0x3b3b3b3b3b4e3b3b3b3b3b4c3b303b6f533b4c4545482054414c462d444e414820474e49544952574e4749533b4335384431,
0x3b3b3b3b3b4e3b3b3b3b3b4c3b303b6f533b4544495320424d5548542054414c462d444e414820474e49544952574e4749533b4435384431,
0x3b3b3b3b3b4e3b3b3b3b3b4c3b303b6f533b4544495320424d554854204c4545482054414c462d444e414820474e49544952574e4749533b4535384431,
0x3b3b3b3b3b4e3b3b3b3b3b4c3b303b6f533b544e454220424d5548542054414c462d444e414820474e49544952574e4749533b4635384431,
0x3b3b3b3b3b4e3b3b3b3b3b4c3b303b6f533b44524157524f4620424d5548542054414c462d444e414820474e49544952574e4749533b3036384431,
0x3b3b3b3b3b4e3b3b3b3b3b4c3b303b6f533b4544495320424d554854205845444e492054494c50532054414c462d444e414820474e49544952574e4749533b3136384431,
0x3b3b3b3b3b4e3b3b3b3b3b4c3b303b6f533b4552544e45432054494c50532054414c462d444e414820474e49544952574e4749533b3236384431,
0x3b3b3b3b3b4e3b3b3b3b3b4c3b303b6f533b4544495320424d554854204552544e45432054494c50532054414c462d444e414820474e49544952574e4749533b3336384431,
0x3b3b3b3b3b4e3b3b3b3b3b4c3b303b6f533b544e4542204544495320424d554854204552544e45432054494c50532054414c462d444e414820474e49544952574e4749533b3436384431,
0x3b3b3b3b3b4e3b3b3b3b3b4c3b303b6f533b454c5454494c2054494c50532054414c462d444e414820474e49544952574e4749533b3536384431,
0x3b3b3b3b3b4e3b3b3b3b3b4c3b303b6f533b57414c432d444e414820474e49544952574e4749533b3636384431,
0x3b3b3b3b3b4e3b3b3b3b3b4c3b303b6f533b4544495320424d5548542057414c432d444e414820474e49544952574e4749533b3736384431,
0x3b3b3b3b3b4e3b3b3b3b3b4c3b303b6f533b424d554854204f4e2057414c432d444e414820474e49544952574e4749533b3836384431,
0x3b3b3b3b3b4e3b3b3b3b3b4c3b303b6f533b44524157524f4620424d5548542057414c432d444e414820474e49544952574e4749533b3936384431,
0x3b3b3b3b3b4e3b3b3b3b3b4c3b303b6f533b455543494c525543204b4f4f482d444e414820474e49544952574e4749533b4136384431,
0x3b3b3b3b3b4e3b3b3b3b3b4c3b303b6f533b4b4f4f482d444e414820474e49544952574e4749533b4236384431,
0x3b3b3b3b3b4e3b3b3b3b3b4c3b303b6f533b4e45504f205055432d444e414820474e49544952574e4749533b4336384431,
0x3b3b3b3b3b4e3b3b3b3b3b4c3b303b6f533b5055432d444e414820474e49544952574e4749533b4436384431,
0x3b3b3b3b3b4e3b3b3b3b3b4c3b303b6f533b4544495320424d554854204e45504f205055432d444e414820474e49544952574e4749533b4536384431,
0x3b3b3b3b3b4e3b3b3b3b3b4c3b303b6f533b4544495320424d554854205055432d444e414820474e49544952574e4749533b4636384431,
0x3b3b3b3b3b4e3b3b3b3b3b4c3b303b6f533b424d554854204f4e204e45504f205055432d444e414820474e49544952574e4749533b3037384431,
0x3b3b3b3b3b4e3b3b3b3b3b4c3b303b6f533b424d554854204f4e205055432d444e414820474e49544952574e4749533b3137384431,
0x3b3b3b3b3b4e3b3b3b3b3b4c3b303b6f533b44524157524f4620424d554854204e45504f205055432d444e414820474e49544952574e4749533b3237384431,
0x3b3b3b3b3b4e3b3b3b3b3b4c3b303b6f533b44524157524f4620424d554854205055432d444e414820474e49544952574e4749533b3337384431,
0x3b3b3b3b3b4e3b3b3b3b3b4c3b303b6f533b4e45504f20455543494c5255432d444e414820474e49544952574e4749533b3437384431,
0x3b3b3b3b3b4e3b3b3b3b3b4c3b303b6f533b455543494c5255432d444e414820474e49544952574e4749533b3537384431,
0x3b3b3b3b3b4e3b3b3b3b3b4c3b303b6f533b454c435249432d444e414820474e49544952574e4749533b3637384431,
0x3b3b3b3b3b4e3b3b3b3b3b4c3b303b6f533b4c41564f2d444e414820474e49544952574e4749533b3737384431,
0x3b3b3b3b3b4e3b3b3b3b3b4c3b303b6f533b4544495320424d554854204c41564f2d444e414820474e49544952574e4749533b3837384431,
0x3b3b3b3b3b4e3b3b3b3b3b4c3b303b6f533b424d554854204f4e204c41564f2d444e414820474e49544952574e4749533b3937384431,
0x3b3b3b3b3b4e3b3b3b3b3b4c3b303b6f533b44524157524f4620424d554854204c41564f2d444e414820474e49544952574e4749533b4137384431,
0x3b3b3b3b3b4e3b3b3b3b3b4c3b303b6f533b4e45504f2045474e49482d444e414820474e49544952574e4749533b4237384431,
0x3b3b3b3b3b4e3b3b3b3b3b4c3b303b6f533b44524157524f4620424d554854204e45504f2045474e49482d444e414820474e49544952574e4749533b4337384431,
0x3b3b3b3b3b4e3b3b3b3b3b4c3b303b6f533b45474e49482d444e414820474e49544952574e4749533b4437384431,
0x3b3b3b3b3b4e3b3b3b3b3b4c3b303b6f533b4c4c414d532045474e49482d444e414820474e49544952574e4749533b4537384431,
0x3b3b3b3b3b4e3b3b3b3b3b4c3b303b6f533b4544495320424d554854204e45504f2045474e49482d444e414820474e49544952574e4749533b4637384431,
0x3b3b3b3b3b4e3b3b3b3b3b4c3b303b6f533b4544495320424d5548542045474e49482d444e414820474e49544952574e4749533b3038384431,
0x3b3b3b3b3b4e3b3b3b3b3b4c3b303b6f533b424d554854204f4e204e45504f2045474e49482d444e414820474e49544952574e4749533b3138384431,
0x3b3b3b3b3b4e3b3b3b3b3b4c3b303b6f533b424d554854204f4e2045474e49482d444e414820474e49544952574e4749533b3238384431,
0x3b3b3b3b3b4e3b3b3b3b3b4c3b303b6f533b5845444e4920474e494843554f54204544495320424d5548542045474e49482d444e414820474e49544952574e4749533b3338384431,
0x3b3b3b3b3b4e3b3b3b3b3b4c3b303b6f533b474e495220454c4444494d204e45455754454220424d5548542045474e49482d444e414820474e49544952574e4749533b3438384431,
0x3b3b3b3b3b4e3b3b3b3b3b4c3b303b6f533b454c474e412d444e414820474e49544952574e4749533b3538384431,
0x3b3b3b3b3b4e3b3b3b3b3b4c3b303b6f533b474e495220454c4444494d205845444e4920545349462d444e414820474e49544952574e4749533b3638384431,
0x3b3b3b3b3b4e3b3b3b3b3b4c3b303b6f533b474e495220454c4444494d205845444e4920454c435249432d444e414820474e49544952574e4749533b3738384431,
0x3b3b3b3b3b4e3b3b3b3b3b4c3b303b6f533b474e495220454c4444494d205845444e492045474e49482d444e414820474e49544952574e4749533b3838384431,
0x3b3b3b3b3b4e3b3b3b3b3b4c3b303b6f533b474e495220454c4444494d205845444e4920454c474e412d444e414820474e49544952574e4749533b3938384431,
0x3b3b3b3b3b4e3b3b3b3b3b4c3b303b6f533b454c5454494c2045474e49482d444e414820474e49544952574e4749533b4138384431,
0x3b3b3b3b3b4e3b3b3b3b3b4c3b303b6f533b544e454220474e495220454c4444494d205845444e4920545349462d444e414820474e49544952574e4749533b4238384431,
0x3b3b3b3b3b4e3b3b3b3b3b4c3b303b6f533b44454e494f4a4e4f4320474e495220454c4444494d205845444e4920545349462d444e414820474e49544952574e4749533b4338384431,
0x3b3b3b3b3b4e3b3b3b3b3b4c3b303b6f533b44454e494f4a4e4f4320474e495220454c4444494d205845444e492045474e49482d444e414820474e49544952574e4749533b4438384431,
0x3b3b3b3b3b4e3b3b3b3b3b4c3b303b6f533b4e574f4420454c5454494c20545349462d444e414820474e49544952574e4749533b4538384431,
0x3b3b3b3b3b4e3b3b3b3b3b4c3b303b6f533b544847494152545320454c50504952204e574f4420454c5454494c20545349462d444e414820474e49544952574e4749533b4638384431,
0x3b3b3b3b3b4e3b3b3b3b3b4c3b303b6f533b44455652554320454c50504952204e574f4420454c5454494c20545349462d444e414820474e49544952574e4749533b3039384431,
0x3b3b3b3b3b4e3b3b3b3b3b4c3b303b6f533b44454c435249432053524548544f204e574f4420454c5454494c20545349462d444e414820474e49544952574e4749533b3139384431,
0x3b3b3b3b3b4e3b3b3b3b3b4c3b303b6f533b505520454c5454494c20545349462d444e414820474e49544952574e4749533b3239384431,
0x3b3b3b3b3b4e3b3b3b3b3b4c3b303b6f533b505520454c5454494c205245444e5520424d55485420545349462d444e414820474e49544952574e4749533b3339384431,
0x3b3b3b3b3b4e3b3b3b3b3b4c3b303b6f533b505520454c5454494c20454c435249432d444e414820474e49544952574e4749533b3439384431,
0x3b3b3b3b3b4e3b3b3b3b3b4c3b303b6f533b505520454c5454494c204c41564f2d444e414820474e49544952574e4749533b3539384431,
0x3b3b3b3b3b4e3b3b3b3b3b4c3b303b6f533b505520454c5454494c20454c474e412d444e414820474e49544952574e4749533b3639384431,
0x3b3b3b3b3b4e3b3b3b3b3b4c3b303b6f533b454c4b43554e4b2044455349415220454c5454494c20545349462d444e414820474e49544952574e4749533b3739384431,
0x3b3b3b3b3b4e3b3b3b3b3b4c3b303b6f533b544e454220454c5454494c20545349462d444e414820474e49544952574e4749533b3839384431,
0x3b3b3b3b3b4e3b3b3b3b3b4c3b303b6f533b424d5548542053454843554f5420454c5454494c20545349462d444e414820474e49544952574e4749533b3939384431,
0x3b3b3b3b3b4e3b3b3b3b3b4c3b303b6f533b424d55485420454c5454494c20545349462d444e414820474e49544952574e4749533b4139384431,
0x3b3b3b3b3b4e3b3b3b3b3b4c3b303b6f533b424d55485420454c5454494c2045474e49482d444e414820474e49544952574e4749533b4239384431,
0x3b3b3b3b3b4e3b3b3b3b3b4c3b303b6f533b424d554854205845444e4920454c5454494c20545349462d444e414820474e49544952574e4749533b4339384431,
0x3b3b3b3b3b4e3b3b3b3b3b4c3b303b6f533b424d554854205845444e4920454c5454494c2045474e49482d444e414820474e49544952574e4749533b4439384431,
0x3b3b3b3b3b4e3b3b3b3b3b4c3b303b6f533b54554f20424d554854205845444e4920424d554854205845444e4920454c5454494c20454c474e412d444e414820474e49544952574e4749533b4539384431,
0x3b3b3b3b3b4e3b3b3b3b3b4c3b303b6f533b424d554854205845444e4920424d554854205845444e4920454c5454494c20454c474e412d444e414820474e49544952574e4749533b4639384431,
0x3b3b3b3b3b4e3b3b3b3b3b4c3b303b6f533b5845444e4920454c5454494c20545349462d444e414820474e49544952574e4749533b3041384431,
0x3b3b3b3b3b4e3b3b3b3b3b4c3b303b6f533b5845444e4920454c5454494c20454c435249432d444e414820474e49544952574e4749533b3141384431,
0x3b3b3b3b3b4e3b3b3b3b3b4c3b303b6f533b5845444e4920454c5454494c2045474e49482d444e414820474e49544952574e4749533b3241384431,
0x3b3b3b3b3b4e3b3b3b3b3b4c3b303b6f533b5845444e4920454c5454494c20454c474e412d444e414820474e49544952574e4749533b3341384431,
0x3b3b3b3b3b4e3b3b3b3b3b4c3b303b6f533b454c5454494c20454c4444494d205845444e4920545349462d444e414820474e49544952574e4749533b3441384431,
0x3b3b3b3b3b4e3b3b3b3b3b4c3b303b6f533b454c5454494c20454c4444494d205845444e4920454c435249432d444e414820474e49544952574e4749533b3541384431,
0x3b3b3b3b3b4e3b3b3b3b3b4c3b303b6f533b454c5454494c20454c4444494d205845444e492045474e49482d444e414820474e49544952574e4749533b3641384431,
0x3b3b3b3b3b4e3b3b3b3b3b4c3b303b6f533b474e49522045474e49482d444e414820474e49544952574e4749533b3741384431,
0x3b3b3b3b3b4e3b3b3b3b3b4c3b303b6f533b454c5454494c20454c4444494d205845444e4920454c474e412d444e414820474e49544952574e4749533b3841384431,
0x3b3b3b3b3b4e3b3b3b3b3b4c3b303b6f533b454c5454494c2053534f524320454c4444494d205845444e4920545349462d444e414820474e49544952574e4749533b3941384431,
0x3b3b3b3b3b4e3b3b3b3b3b4c3b303b6f533b454c5454494c2053534f524320454c4444494d205845444e4920454c435249432d444e414820474e49544952574e4749533b4141384431,
0x3b3b3b3b3b4e3b3b3b3b3b4c3b303b6f533b4e574f4420474e495220545349462d444e414820474e49544952574e4749533b4241384431,
0x3b3b3b3b3b4e3b3b3b3b3b4c3b303b6f533b454c4444494d204b4f4f4820424d554854205845444e49204e574f4420474e49522045474e49482d444e414820474e49544952574e4749533b4341384431,
0x3b3b3b3b3b4e3b3b3b3b3b4c3b303b6f533b53534f5243205845444e4920424d55485420454c4444494d204e574f4420474e495220454c474e412d444e414820474e49544952574e4749533b4441384431,
0x3b3b3b3b3b4e3b3b3b3b3b4c3b303b6f533b505520474e495220545349462d444e414820474e49544952574e4749533b4541384431,
0x3b3b3b3b3b4e3b3b3b3b3b4c3b303b6f533b454c4b43554e4b2044455349415220474e495220545349462d444e414820474e49544952574e4749533b4641384431,
0x3b3b3b3b3b4e3b3b3b3b3b4c3b303b6f533b454c5454494c20474e495220545349462d444e414820474e49544952574e4749533b3042384431,
0x3b3b3b3b3b4e3b3b3b3b3b4c3b303b6f533b454c5454494c20474e495220454c435249432d444e414820474e49544952574e4749533b3142384431,
0x3b3b3b3b3b4e3b3b3b3b3b4c3b303b6f533b454c5454494c20474e4952204c41564f2d444e414820474e49544952574e4749533b3242384431,
0x3b3b3b3b3b4e3b3b3b3b3b4c3b303b6f533b454c5454494c20474e495220454c474e412d444e414820474e49544952574e4749533b3342384431,
0x3b3b3b3b3b4e3b3b3b3b3b4c3b303b6f533b454c4444494d20474e495220545349462d444e414820474e49544952574e4749533b3442384431,
0x3b3b3b3b3b4e3b3b3b3b3b4c3b303b6f533b44454e494f4a4e4f4320454c4444494d20474e495220545349462d444e414820474e49544952574e4749533b3542384431,
0x3b3b3b3b3b4e3b3b3b3b3b4c3b303b6f533b53454c4b43554e4b2044455349415220454c4444494d20474e495220545349462d444e414820474e49544952574e4749533b3642384431,
0x3b3b3b3b3b4e3b3b3b3b3b4c3b303b6f533b5845444e4920474e495220545349462d444e414820474e49544952574e4749533b3742384431,
0x3b3b3b3b3b4e3b3b3b3b3b4c3b303b6f533b424d55485420474e495220545349462d444e414820474e49544952574e4749533b3842384431,
0x3b3b3b3b3b4e3b3b3b3b3b4c3b303b6f533b424d55485420474e4952204b4f4f482d444e414820474e49544952574e4749533b3942384431,
0x3b3b3b3b3b4e3b3b3b3b3b4c3b303b6f533b454c5454494c20474e4952205845444e4920545349462d444e414820474e49544952574e4749533b4142384431,
0x3b3b3b3b3b4e3b3b3b3b3b4c3b303b6f533b454c5454494c20474e4952205845444e4920454c435249432d444e414820474e49544952574e4749533b4242384431,
0x3b3b3b3b3b4e3b3b3b3b3b4c3b303b6f533b4e4f20454c5454494c20474e4952205845444e4920455543494c5255432d444e414820474e49544952574e4749533b4342384431,
0x3b3b3b3b3b4e3b3b3b3b3b4c3b303b6f533b54554f20454c5454494c20474e4952205845444e49204b4f4f482d444e414820474e49544952574e4749533b4442384431,
0x3b3b3b3b3b4e3b3b3b3b3b4c3b303b6f533b4e4920454c5454494c20474e4952205845444e49204b4f4f482d444e414820474e49544952574e4749533b4542384431,
0x3b3b3b3b3b4e3b3b3b3b3b4c3b303b6f533b5245444e5520454c5454494c20474e4952205845444e49204b4f4f482d444e414820474e49544952574e4749533b4642384431,
0x3b3b3b3b3b4e3b3b3b3b3b4c3b303b6f533b454c5454494c20474e4952205845444e49205055432d444e414820474e49544952574e4749533b3043384431,
0x3b3b3b3b3b4e3b3b3b3b3b4c3b303b6f533b454c5454494c20474e4952205845444e492045474e49482d444e414820474e49544952574e4749533b3143384431,
0x3b3b3b3b3b4e3b3b3b3b3b4c3b303b6f533b54554f20454c5454494c20474e4952205845444e4920454c474e412d444e414820474e49544952574e4749533b3243384431,
0x3b3b3b3b3b4e3b3b3b3b3b4c3b303b6f533b454c5454494c20474e4952205845444e4920454c474e412d444e414820474e49544952574e4749533b3343384431,
0x3b3b3b3b3b4e3b3b3b3b3b4c3b303b6f533b4e574f4420454c4444494d20545349462d444e414820474e49544952574e4749533b3443384431,
0x3b3b3b3b3b4e3b3b3b3b3b4c3b303b6f533b454c4444494d2045474e49482d444e414820474e49544952574e4749533b3543384431,
0x3b3b3b3b3b4e3b3b3b3b3b4c3b303b6f533b505520454c4444494d20545349462d444e414820474e49544952574e4749533b3643384431,
0x3b3b3b3b3b4e3b3b3b3b3b4c3b303b6f533b505520454c4444494d20454c435249432d444e414820474e49544952574e4749533b3743384431,
0x3b3b3b3b3b4e3b3b3b3b3b4c3b303b6f533b454c4b43554e4b2044455349415220454c4444494d20545349462d444e414820474e49544952574e4749533b3843384431,
0x3b3b3b3b3b4e3b3b3b3b3b4c3b303b6f533b4544495320424d55485420505520454c4444494d20545349462d444e414820474e49544952574e4749533b3943384431,
0x3b3b3b3b3b4e3b3b3b3b3b4c3b303b6f533b424d55485420454c4444494d204b4f4f482d444e414820474e49544952574e4749533b4143384431,
0x3b3b3b3b3b4e3b3b3b3b3b4c3b303b6f533b454c5454494c20424d55485420454c4444494d20545349462d444e414820474e49544952574e4749533b4243384431,
0x3b3b3b3b3b4e3b3b3b3b3b4c3b303b6f533b454c5454494c20454c4444494d20545349462d444e414820474e49544952574e4749533b4343384431,
0x3b3b3b3b3b4e3b3b3b3b3b4c3b303b6f533b454c5454494c20474e495220454c4444494d20545349462d444e414820474e49544952574e4749533b4443384431,
0x3b3b3b3b3b4e3b3b3b3b3b4c3b303b6f533b454c5454494c20474e495220454c4444494d20454c435249432d444e414820474e49544952574e4749533b4543384431,
0x3b3b3b3b3b4e3b3b3b3b3b4c3b303b6f533b4e4f20454c5454494c20474e495220454c4444494d20455543494c5255432d444e414820474e49544952574e4749533b4643384431,
0x3b3b3b3b3b4e3b3b3b3b3b4c3b303b6f533b454c5454494c20474e495220454c4444494d205055432d444e414820474e49544952574e4749533b3044384431,
0x3b3b3b3b3b4e3b3b3b3b3b4c3b303b6f533b454c5454494c20474e495220454c4444494d2045474e49482d444e414820474e49544952574e4749533b3144384431,
0x3b3b3b3b3b4e3b3b3b3b3b4c3b303b6f533b54554f20454c5454494c20474e495220454c4444494d20454c474e412d444e414820474e49544952574e4749533b3244384431,
0x3b3b3b3b3b4e3b3b3b3b3b4c3b303b6f533b4e4920454c5454494c20474e495220454c4444494d20454c474e412d444e414820474e49544952574e4749533b3344384431,
0x3b3b3b3b3b4e3b3b3b3b3b4c3b303b6f533b454c5454494c20474e495220454c4444494d20454c474e412d444e414820474e49544952574e4749533b3444384431,
0x3b3b3b3b3b4e3b3b3b3b3b4c3b303b6f533b544e454220454c5454494c20474e495220454c4444494d20454c435249432d444e414820474e49544952574e4749533b3544384431,
0x3b3b3b3b3b4e3b3b3b3b3b4c3b303b6f533b44454e494f4a4e4f4320454c5454494c20474e495220454c4444494d2057414c432d444e414820474e49544952574e4749533b3644384431,
0x3b3b3b3b3b4e3b3b3b3b3b4c3b303b6f533b454449532044454e494f4a4e4f4320454c5454494c20474e495220454c4444494d2057414c432d444e414820474e49544952574e4749533b3744384431,
0x3b3b3b3b3b4e3b3b3b3b3b4c3b303b6f533b54554f2044454e494f4a4e4f4320454c5454494c20474e495220454c4444494d204b4f4f482d444e414820474e49544952574e4749533b3844384431,
0x3b3b3b3b3b4e3b3b3b3b3b4c3b303b6f533b4e492044454e494f4a4e4f4320454c5454494c20474e495220454c4444494d204b4f4f482d444e414820474e49544952574e4749533b3944384431,
0x3b3b3b3b3b4e3b3b3b3b3b4c3b303b6f533b44454e494f4a4e4f4320454c5454494c20474e495220454c4444494d204b4f4f482d444e414820474e49544952574e4749533b4144384431,
0x3b3b3b3b3b4e3b3b3b3b3b4c3b303b6f533b4445474e4948205845444e492045474e49482d444e414820474e49544952574e4749533b4244384431,
0x3b3b3b3b3b4e3b3b3b3b3b4c3b303b6f533b4544495320424d554854205845444e4920545349462d444e414820474e49544952574e4749533b4344384431,
0x3b3b3b3b3b4e3b3b3b3b3b4c3b303b6f533b4544495320424d554854205845444e492045474e49482d444e414820474e49544952574e4749533b4444384431,
0x3b3b3b3b3b4e3b3b3b3b3b4c3b303b6f533b4c414e4f4741494420424d554854204544495320424d554854205845444e4920545349462d444e414820474e49544952574e4749533b4544384431,
0x3b3b3b3b3b4e3b3b3b3b3b4c3b303b6f533b44454e494f4a4e4f4320424d554854204544495320424d554854205845444e4920545349462d444e414820474e49544952574e4749533b4644384431,
0x3b3b3b3b3b4e3b3b3b3b3b4c3b303b6f533b544e454220424d554854204544495320424d554854205845444e4920545349462d444e414820474e49544952574e4749533b3045384431,
0x3b3b3b3b3b4e3b3b3b3b3b4c3b303b6f533b544e4542205845444e49204544495320424d554854205845444e4920545349462d444e414820474e49544952574e4749533b3145384431,
0x3b3b3b3b3b4e3b3b3b3b3b4c3b303b6f533b544e45422048544f42204544495320424d554854205845444e4920545349462d444e414820474e49544952574e4749533b3245384431,
0x3b3b3b3b3b4e3b3b3b3b3b4c3b303b6f533b45474e4948205845444e49204544495320424d554854205845444e4920545349462d444e414820474e49544952574e4749533b3345384431,
0x3b3b3b3b3b4e3b3b3b3b3b4c3b303b6f533b5448474941525453205845444e492044524157524f4620424d554854205845444e4920545349462d444e414820474e49544952574e4749533b3445384431,
0x3b3b3b3b3b4e3b3b3b3b3b4c3b303b6f533b544e4542205845444e492044524157524f4620424d554854205845444e4920545349462d444e414820474e49544952574e4749533b3545384431,
0x3b3b3b3b3b4e3b3b3b3b3b4c3b303b6f533b4b4f4f4820424d554854205845444e4920545349462d444e414820474e49544952574e4749533b3645384431,
0x3b3b3b3b3b4e3b3b3b3b3b4c3b303b6f533b455543494c52554320424d554854205845444e4920545349462d444e414820474e49544952574e4749533b3745384431,
0x3b3b3b3b3b4e3b3b3b3b3b4c3b303b6f533b454449534e4920424d55485420455652554320424d554854205845444e4920545349462d444e414820474e49544952574e4749533b3845384431,
0x3b3b3b3b3b4e3b3b3b3b3b4c3b303b6f533b454449534e4920424d55485420455652554320424d554854205845444e492057414c432d444e414820474e49544952574e4749533b3945384431,
0x3b3b3b3b3b4e3b3b3b3b3b4c3b303b6f533b5245444e5520424d55485420455652554320424d554854205845444e4920545349462d444e414820474e49544952574e4749533b4145384431,
0x3b3b3b3b3b4e3b3b3b3b3b4c3b303b6f533b454c4352494320424d554854205845444e4920545349462d444e414820474e49544952574e4749533b4245384431,
0x3b3b3b3b3b4e3b3b3b3b3b4c3b303b6f533b424d554854205845444e49205055432d444e414820474e49544952574e4749533b4345384431]

end U5e.Data
